import Verif.Spec.Casts
import Verif.Proof.Calc
import Verif.Proof.Neutral

/-!
# Casts one after the other
-/

namespace Aitisa

variable {E : Env} {m : Mem} {R : Foot} {T : TV} {c c' d : Code} {xs zs : List Val} {cs cs' : List Code} {fp : FloatOps} {x y z : Val} {n : Int}

theorem ShapeOK.smaller {ds : List Nat} {a b : Nat} (h : ShapeOK ds b) (hab : a ≤ b) : ShapeOK ds a :=
  ⟨Nat.le_trans (Nat.mul_le_mul_left _ (by omega)) h.fits, h.rank⟩

theorem size_le_8 (c : Code) : c.size ≤ 8 := by cases c <;> decide

theorem casts_computes : ∀ {cs : List Code} {c : Code} {m : Mem} {R : Foot} {T : TV} {xs zs : List Val}, m.WF → At m R T → Elems T c xs →
    ShapeOK T.dims 8 → Steps c cs → Pointwise (ThroughCasts E.fp cs) xs zs →
    Computes E (casts cs R.h) m ⟨(lastCode c cs).dtype, T.device, T.dims, encAll (lastCode c cs) zs⟩
  | [], c, m, R, T, xs, zs, wf, h, he, _, _, hz => by
    have : zs = xs := List.ext_getElem hz.1.symm fun k h1 h2 => hz.2 k h2 h1
    subst this
    have hT : (⟨c.dtype, T.device, T.dims, encAll c zs⟩ : TV) = T := by rw [← he.dtype, ← he.bytes]
    simp only [lastCode, hT]
    refine ⟨fun {h' m'} e => ?_, fun _ _ => ⟨R, m, rfl, wf, Frame.refl m, h⟩⟩
    simp only [casts, Res.ok.injEq, Prod.mk.injEq] at e
    obtain ⟨⟨-, rfl⟩, rfl⟩ := e
    exact ⟨R, rfl, wf, Frame.refl m, h⟩
  | c' :: cs, c, m, R, T, xs, zs, wf, h, he, hs, hst, hz => by
    obtain ⟨ys, hD, hY⟩ := C11_cast (E := E) wf h he (c' := c') (fun e => hst.1 e.symm) (hs.smaller (size_le_8 c')) (fun x hx => by
      obtain ⟨k, hk, rfl⟩ := List.getElem_of_mem hx
      obtain ⟨y, hy, -⟩ := hz.2 k hk (by rw [← hz.1]; exact hk)
      exact ⟨y, hy⟩) .null
    have hyl : ys.length = zs.length := by rw [← hY.1, hz.1]
    have hyz : Pointwise (ThroughCasts E.fp cs) ys zs := ⟨hyl, fun k h1 h2 => by
      have hk : k < xs.length := by rw [hY.1]; exact h1
      obtain ⟨y, hy, ht⟩ := hz.2 k hk h2
      have h3 := converts_iff.1 (hY.2 k hk h1)
      rw [converts_iff.1 hy] at h3
      cases h3
      exact ht⟩
    have hc := hD.creates.yields.computes
    have fin : ∀ {m' : Mem} {R' : Foot}, m'.WF → At m' R' ⟨c'.dtype, T.device, T.dims, encAll c' ys⟩ → _ := fun {m'} {R'} wf' h' =>
      casts_computes (m := m') (R := R') (zs := zs) wf' h' (⟨rfl, rfl, hD.wt, hD.len⟩ : Elems ⟨c'.dtype, T.device, T.dims, encAll c' ys⟩ c' ys) hs hst.2 hyz
    constructor
    · intro h' m' e
      simp only [casts] at e
      split at e
      · next h1 m1 e1 =>
        obtain ⟨R1, rfl, wf1, f1, a1⟩ := hc.only e1
        obtain ⟨R2, rfl, wf2, f2, a2⟩ := (fin wf1 a1).only e
        exact ⟨R2, rfl, wf2, f1.trans f2, a2⟩
      · next hne => exact absurd e (hne _ _)
    · intro nf mf
      obtain ⟨R1, m1, e1, wf1, f1, a1⟩ := hc.runs nf mf
      obtain ⟨R2, m2, e2, wf2, f2, a2⟩ := (fin wf1 a1).runs nf mf
      exact ⟨R2, m2, by simp only [casts, e1, e2], wf2, f1.trans f2, a2⟩

theorem choose_through (h : ∀ x ∈ xs, ∃ z, ThroughCasts fp cs x z) : ∃ zs, Pointwise (ThroughCasts fp cs) xs zs := by
  obtain ⟨zs, hl, hz⟩ := choose_list (n := xs.length) (P := fun k z => ThroughCasts fp cs (xs.getD k (.int 0)) z) fun k hk => by
    obtain ⟨z, hz⟩ := h _ (List.getElem_mem hk)
    exact ⟨z, by simpa [List.getD, List.getElem?_eq_getElem hk] using hz⟩
  refine ⟨zs, hl.symm, fun k h1 h2 => ?_⟩
  have := hz k h2
  simpa [List.getD, List.getElem?_eq_getElem h1] using this

theorem casts_agree (wf : m.WF) (h : At m R T) (he : Elems T c xs) (hs : ShapeOK T.dims 8) (h1 : Steps c cs) (h2 : Steps c cs')
    (hl : lastCode c cs = lastCode c cs') (hz : ∀ x ∈ xs, ∃ z, ThroughCasts E.fp cs x z ∧ ThroughCasts E.fp cs' x z) :
    GiveSame E m (casts cs R.h) (casts cs' R.h) := by
  obtain ⟨zs, hzl, hzz⟩ := choose_list (n := xs.length)
    (P := fun k z => ThroughCasts E.fp cs (xs.getD k (.int 0)) z ∧ ThroughCasts E.fp cs' (xs.getD k (.int 0)) z) fun k hk => by
    obtain ⟨z, hz⟩ := hz _ (List.getElem_mem hk)
    exact ⟨z, by simpa [List.getD, List.getElem?_eq_getElem hk] using hz⟩
  have get : ∀ k (h1 : k < xs.length) (h2 : k < zs.length), ThroughCasts E.fp cs xs[k] zs[k] ∧ ThroughCasts E.fp cs' xs[k] zs[k] := fun k h1 h2 => by
    have := hzz k h2
    simpa [List.getD, List.getElem?_eq_getElem h1] using this
  have ha := casts_computes (E := E) wf h he hs h1 (zs := zs) ⟨hzl.symm, fun k a b => (get k a b).1⟩
  have hb := fun {m' : Mem} (wf' : m'.WF) (h' : At m' R T) => casts_computes (E := E) wf' h' he hs h2 (zs := zs) ⟨hzl.symm, fun k a b => (get k a b).2⟩
  rw [hl] at ha
  constructor
  · intro h1 h2 m1 m2 e1 e2
    obtain ⟨R1, rfl, wf1, f1, a1⟩ := ha.only e1
    obtain ⟨R2, rfl, wf2, f2, a2⟩ := (hb wf1 (h.frame wf f1)).only e2
    exact ⟨R1, R2, _, rfl, rfl, a1.frame wf1 f2, a2⟩
  · intro nf mf
    obtain ⟨R1, m1, e1, wf1, f1, a1⟩ := ha.runs nf mf
    obtain ⟨R2, m2, e2, wf2, f2, a2⟩ := (hb wf1 (h.frame wf f1)).runs nf mf
    exact ⟨_, _, _, _, e1, e2, R1, R2, _, rfl, rfl, a1.frame wf1 f2, a2⟩

theorem direct_steps (c d : Code) : Steps c (direct c d) := by
  unfold direct; split
  · trivial
  · exact ⟨by assumption, trivial⟩

theorem direct_last (c d : Code) : lastCode c (direct c d) = d := by
  unfold direct; split
  · next h => exact h.symm
  · rfl

theorem last_append : ∀ (cs : List Code) (c d : Code), lastCode c (cs ++ [d]) = d
  | [], _, _ => rfl
  | _ :: cs, _, d => last_append cs _ d

/-! ### Integer types -/

theorem int_converts (hc : c.isInt = true) (n : Int) : Converts fp c (.int n) (.int (c.wrap n)) := by
  have := (reduces_iff hc).2 (rfl : c.wrap n = c.wrap n)
  cases c <;> first | exact absurd hc (by decide) | exact ⟨_, rfl, this⟩

theorem wrap_wrap (hc : d.isInt = true) (hs : d.size ≤ c'.size) (n : Int) : d.wrap (c'.wrap n) = d.wrap n := by
  apply wrap_congr
  have h1 := wrap_mod c' n
  have hd : (2 : Int) ^ (8 * d.size) ∣ 2 ^ (8 * c'.size) := by
    refine ⟨2 ^ (8 * c'.size - 8 * d.size), ?_⟩
    rw [← Int.pow_add]; congr 1; omega
  rw [← Int.emod_emod_of_dvd (c'.wrap n) hd, h1, Int.emod_emod_of_dvd n hd]

/-- A narrowing conversion and the one back, between integer types. -/
theorem narrow_back (hc : c.isInt = true) (hc' : c'.isInt = true) (hsz : c'.size < c.size) {n : Int} (hn : c.lo ≤ n ∧ n ≤ c.hi) :
    c.wrap (c'.wrap n) = n ↔ (c'.lo ≤ n ∧ n ≤ c'.hi) ∨ (c.signed = false ∧ c'.lo ≤ n - 2 ^ (8 * c.size) ∧ n - 2 ^ (8 * c.size) ≤ c'.hi) := by
  have a1 : Code.i8.lo = -128 ∧ Code.i8.hi = 127 ∧ Code.u8.lo = 0 ∧ Code.u8.hi = 255 := by decide
  have a2 : Code.i16.lo = -32768 ∧ Code.i16.hi = 32767 ∧ Code.u16.lo = 0 ∧ Code.u16.hi = 65535 := by decide
  have a3 : Code.i32.lo = -2147483648 ∧ Code.i32.hi = 2147483647 ∧ Code.u32.lo = 0 ∧ Code.u32.hi = 4294967295 := by decide
  have a4 : Code.i64.lo = -9223372036854775808 ∧ Code.i64.hi = 9223372036854775807 ∧ Code.u64.lo = 0 ∧ Code.u64.hi = 18446744073709551615 := by decide
  have p1 : (2 : Int) ^ (8 * Code.i8.size) = 256 ∧ (2 : Int) ^ (8 * Code.u8.size) = 256 := by decide
  have p2 : (2 : Int) ^ (8 * Code.i16.size) = 65536 ∧ (2 : Int) ^ (8 * Code.u16.size) = 65536 := by decide
  have p3 : (2 : Int) ^ (8 * Code.i32.size) = 4294967296 ∧ (2 : Int) ^ (8 * Code.u32.size) = 4294967296 := by decide
  have p4 : (2 : Int) ^ (8 * Code.i64.size) = 18446744073709551616 ∧ (2 : Int) ^ (8 * Code.u64.size) = 18446744073709551616 := by decide
  unfold Code.wrap
  cases c <;> first | exact absurd hc (by decide) | skip
  all_goals cases c' <;> first | exact absurd hc' (by decide) | exact absurd hsz (by decide) | skip
  all_goals
    simp only [a1, a2, a3, a4, p1, p2, p3, p4] at hn ⊢
    simp only [Code.signed, reduceCtorEq, false_and, or_false, true_and]
    omega

theorem within_int (hc : c.isInt = true) (n : Int) : Within c n ↔ c.lo ≤ n ∧ n ≤ c.hi := by
  have := intRange_eq c hc
  cases c <;> first | exact absurd hc (by decide) | (
    simp only [Within, this]
    exact ⟨fun ⟨_, _, e, a, b⟩ => by cases e; exact ⟨a, b⟩, fun ⟨a, b⟩ => ⟨_, _, rfl, a, b⟩⟩)

theorem ints_through (hd : d.isInt = true) : ∀ {cs : List Code}, (∀ c' ∈ cs, c'.isInt = true ∧ d.size ≤ c'.size) → ∀ n,
    ThroughCasts fp (cs ++ [d]) (.int n) (.int (d.wrap n))
  | [], _, n => ⟨_, int_converts hd n, rfl⟩
  | c' :: cs, h, n => by
    obtain ⟨hi, hs⟩ := h c' (List.mem_cons_self ..)
    refine ⟨_, int_converts hi n, ?_⟩
    rw [← wrap_wrap hd hs n]
    exact ints_through hd (fun c hc => h c (List.mem_cons_of_mem _ hc)) _

theorem int_WT (hc : c.isInt = true) (hx : x.WT c) : ∃ n, x = .int n ∧ c.lo ≤ n ∧ n ≤ c.hi := by
  cases x with
  | int n => exact ⟨n, rfl, by cases c <;> first | exact absurd hc (by decide) | exact hx⟩
  | f32 b => cases c <;> first | exact absurd hc (by decide) | exact hx.elim
  | f64 b => cases c <;> first | exact absurd hc (by decide) | exact hx.elim

theorem direct_int (hc : c.isInt = true) (hd : d.isInt = true) (hn : c.lo ≤ n ∧ n ≤ c.hi) :
    ThroughCasts fp (direct c d) (.int n) (.int (d.wrap n)) := by
  unfold direct; split
  · next h => subst h; show Val.int _ = _; rw [wrap_id hn]
  · exact ⟨_, int_converts hd n, rfl⟩

/-! ### Whole numbers -/

theorem isInt_inj {F : Fmt} (h : F.OK) {a b : Nat} (ha : a < 2 * F.signBit) (hb : b < 2 * F.signBit) (a0 : a ≠ F.signBit) (b0 : b ≠ F.signBit)
    {n : Int} (hn : F.IsInt a n) (hn' : F.IsInt b n) : a = b := by
  simp only [Fmt.IsInt] at hn hn'
  obtain ⟨s, i, hi, rfl⟩ := finite_signed h ha (by rw [hn]; simp)
  obtain ⟨t, j, hj, rfl⟩ := finite_signed h hb (by rw [hn']; simp)
  have hlt := inf_lt_sign h
  rw [units_signed h (by omega), if_pos hi] at hn
  rw [units_signed h (by omega), if_pos hj, ← hn] at hn'
  have e := Option.some.inj hn'
  have hm : F.mag j = F.mag i := by
    have := congrArg Int.natAbs e
    rwa [natAbs_sgn, natAbs_sgn] at this
  have := mag_inj F hm
  subst this
  by_cases hz : j = 0
  · subst hz
    have : ∀ {s : Bool}, F.signed s 0 ≠ F.signBit → s = false := fun {s} hs => by
      cases s
      · rfl
      · exact absurd (by simp [Fmt.signed]) hs
    rw [this a0, this b0]
  · have hp := (mag_pos F).2 (Nat.pos_of_ne_zero hz)
    cases s <;> cases t <;> first | rfl | (simp only [sgn, if_true, Bool.false_eq_true, if_false] at e; omega)

theorem stands_inj (wx : x.WT c) (wy : y.WT c) (hx : Stands x n) (hy : Stands y n) (x0 : ¬ MinusZero x) (y0 : ¬ MinusZero y) : x = y := by
  rcases stands_WT wx hx with ⟨rfl, p, rfl, hp⟩ | ⟨rfl, p, rfl, hp⟩ | ⟨hi, rfl, -⟩
  · rcases stands_WT wy hy with ⟨-, q, rfl, hq⟩ | ⟨h, -⟩ | ⟨h, -⟩
    · rw [BitVec.eq_of_toNat_eq (isInt_inj b32_ok (bits32 p) (bits32 q) x0 y0 hp hq)]
    · cases h
    · cases h
  · rcases stands_WT wy hy with ⟨h, -⟩ | ⟨-, q, rfl, hq⟩ | ⟨h, -⟩
    · cases h
    · rw [BitVec.eq_of_toNat_eq (isInt_inj b64_ok (bits64 p) (bits64 q) x0 y0 hp hq)]
    · cases h
  · rcases stands_WT wy hy with ⟨rfl, -⟩ | ⟨rfl, -⟩ | ⟨-, rfl, -⟩
    · cases hi
    · cases hi
    · rfl

theorem minus_zero_stands (h : MinusZero x) (hn : Stands x n) : n = 0 := by
  have hz : ∀ {F : Fmt}, F.OK → F.IsInt F.signBit 0 := fun {F} h => by
    have := units_zero h true
    simp only [Fmt.signed, if_true, Nat.add_zero] at this
    simp [Fmt.IsInt, this]
  cases x with
  | int k => exact h.elim
  | f32 b =>
    have h' : Stands (.f32 b) 0 := by
      simp only [MinusZero] at h
      simp only [Stands, h]
      exact hz b32_ok
    exact stands_unique_num (c := .f32) hn h'
  | f64 b =>
    have h' : Stands (.f64 b) 0 := by
      simp only [MinusZero] at h
      simp only [Stands, h]
      exact hz b64_ok
    exact stands_unique_num (c := .f64) hn h'

theorem whole_converts (wx : x.WT c) (hn : Stands x n) (x0 : ¬ MinusZero x) (hw : Within c' n) :
    ∃ y, Converts ieee c' x y ∧ y.WT c' ∧ Stands y n ∧ ¬ MinusZero y := by
  by_cases h0 : n = 0
  · subst h0
    refine ⟨zeroVal c', ?_, zeroVal_WT c', zeroVal_stands c', (zeroVal_plain c').2⟩
    have := stands_inj wx (zeroVal_WT c) hn (zeroVal_stands c) x0 (zeroVal_plain c).2
    subst this
    have hzf : ∀ d, Converts ieee d (.f32 0) (zeroVal d) := fun d => by
      cases d <;> first
        | rfl
        | exact congrArg Val.f64 (show (0 : BitVec 64) = ieee.widen 0 by decide +kernel)
        | exact ⟨0, rfl, trunc_int b32_ok (isInt_zero b32_ok), _, _, rfl, by decide, by decide⟩
    have hzd : ∀ d, Converts ieee d (.f64 0) (zeroVal d) := fun d => by
      have := zeroVal_of d
      rwa [ZeroOf, show ieee.ofInt64 0 = 0 by decide +kernel] at this
    cases c with
    | f32 => exact hzf c'
    | f64 => exact hzd c'
    | _ => exact zeroVal_conv c'
  · obtain ⟨y, hy, hs⟩ := converts_exact wx hn hw
    exact ⟨y, hy, cCast_WT (converts_iff.1 hy), hs, fun h => h0 (minus_zero_stands h hs)⟩

theorem whole_through : ∀ {cs : List Code} {c : Code} {x : Val}, x.WT c → Stands x n → ¬ MinusZero x → (∀ c' ∈ cs, Within c' n) →
    ∃ z, ThroughCasts ieee cs x z ∧ z.WT (lastCode c cs) ∧ Stands z n ∧ ¬ MinusZero z
  | [], _, x, wx, hn, x0, _ => ⟨x, rfl, wx, hn, x0⟩
  | c' :: cs, _, x, wx, hn, x0, h => by
    obtain ⟨y, hy, wy, hs, y0⟩ := whole_converts (c' := c') wx hn x0 (h c' (List.mem_cons_self ..))
    obtain ⟨z, hz, r⟩ := whole_through (cs := cs) wy hs y0 fun c hc => h c (List.mem_cons_of_mem _ hc)
    exact ⟨z, ⟨y, hy, hz⟩, r⟩

/-! ### Through `double` -/

/-- Truncation of `m * 2^e`. -/
def truncAt (m : Nat) (e : Int) : Nat := if 0 ≤ e then m * 2 ^ e.toNat else m / 2 ^ (-e).toNat

theorem truncAt_shift (m k : Nat) (e : Int) : truncAt (m * 2 ^ k) (e - k) = truncAt m e := by
  unfold truncAt
  by_cases h1 : 0 ≤ e - k
  · rw [if_pos h1, if_pos (by omega), Nat.mul_assoc, ← Nat.pow_add]
    congr 2; omega
  · rw [if_neg h1]
    by_cases h2 : 0 ≤ e
    · rw [if_pos h2]
      have hk : k = e.toNat + (-(e - k)).toNat := by omega
      have : m * 2 ^ k = m * 2 ^ e.toNat * 2 ^ (-(e - k)).toNat := by
        rw [Nat.mul_assoc, ← Nat.pow_add, ← hk]
      rw [this, Nat.mul_div_cancel _ (Nat.two_pow_pos _)]
    · rw [if_neg h2]
      have : (-(e - (k : Int))).toNat = (-e).toNat + k := by omega
      rw [this, Nat.pow_add, Nat.mul_div_mul_right _ _ (Nat.two_pow_pos k)]

theorem trunc_eq (F : Fmt) (b : Nat) : F.trunc b = match F.decode b with | .fin s m e => some (sgn s (truncAt m e)) | _ => none := rfl

theorem trunc_widen {b : BitVec 32} (h : ieee.trunc32 b = some n) : ieee.trunc64 (ieee.widen b) = some n := by
  simp only [ieee] at h ⊢
  rw [of64 (convert_lt b64_ok _)]
  rw [trunc_eq] at h ⊢
  cases hd : b32.decode b.toNat with
  | nan => rw [hd] at h; cases h
  | inf s => rw [hd] at h; cases h
  | fin s m e =>
    obtain ⟨k, hk⟩ := convert_wide b32_ok b64_ok (by decide) (by decide) (by decide) (bits32 b) hd
    rw [hd] at h
    rw [hk]
    simp only [truncAt_shift]
    exact h

theorem ofInt_decode {F : Fmt} (h : F.OK) (hn : n.natAbs < 2 ^ F.p) (h0 : n ≠ 0) :
    ∃ k : Nat, F.decode (F.ofInt n) = .fin (decide (n < 0)) (n.natAbs * 2 ^ k) (0 - k) := by
  have hm0 : n.natAbs ≠ 0 := by omega
  have hlog : Nat.log2 n.natAbs < F.p := (Nat.log2_lt hm0).2 hn
  obtain ⟨e', he'⟩ : ∃ e', e' = max ((0 : Int) + (Nat.log2 n.natAbs + 1 : Nat) - F.p) F.emin := ⟨_, rfl⟩
  have hem := h.emin
  have hle : e' ≤ 0 := by omega
  refine ⟨(0 - e').toNat, ?_⟩
  have hee : (0 : Int) - ((0 - e').toNat : Nat) = e' := by omega
  rw [hee]
  refine round_fin h hm0 he' (.inl ⟨hle, rfl⟩) ?_
  have hq : n.natAbs * 2 ^ (0 - e').toNat < 2 ^ F.p := by
    calc n.natAbs * 2 ^ (0 - e').toNat < 2 ^ (Nat.log2 n.natAbs + 1) * 2 ^ (0 - e').toNat := Nat.mul_lt_mul_of_pos_right (log2_bounds hm0).2 (Nat.two_pow_pos _)
      _ = 2 ^ (Nat.log2 n.natAbs + 1 + (0 - e').toNat) := by rw [← Nat.pow_add]
      _ ≤ 2 ^ F.p := Nat.pow_le_pow_right (by decide) (by omega)
  have hroom : F.low + 3 ≤ 2 ^ F.w := by
    have := h.room; have := h.two; have := h.p3
    simp only [Fmt.low]; omega
  have h2 : (e' - F.emin).toNat + 2 ≤ 2 ^ F.w - 1 := by omega
  have h3 := Nat.mul_le_mul_right (2 ^ (F.p - 1)) h2
  have h4 := h.pow_p
  rw [Nat.add_mul] at h3
  simp only [Fmt.infBits]
  omega

theorem narrow_int (hn : Within .f64 n) : ieee.narrow (ieee.ofInt64 n) = ieee.ofInt32 n := by
  simp only [ieee]
  congr 1
  rw [of64 (ofInt_lt b64_ok _)]
  by_cases h0 : n = 0
  · subst h0; rw [ofInt_zero, ofInt_zero]; exact convert_zero b64 b32 b64_ok
  · obtain ⟨k, hk⟩ := ofInt_decode b64_ok (within64.1 hn) h0
    rw [Fmt.convert]
    simp only [hk]
    rw [round_shift]
    rfl

theorem via_double (wx : x.WT c) (hc : c ≠ .i64 ∧ c ≠ .u64) (hy : Converts ieee d x y) (hn : d = .f32 → NotNaN x)
    (hw : c.isInt = true → d.isInt = true → ∀ n, x = .int n → Within d n) : ThroughCasts ieee [.f64, d] x y := by
  cases x with
  | f64 b => exact ⟨.f64 b, rfl, y, hy, rfl⟩
  | f32 b =>
    refine ⟨_, rfl, y, ?_, rfl⟩
    cases d with
    | f64 => exact hy
    | f32 =>
      rw [show y = .f32 b from hy]
      refine congrArg Val.f32 (back32 ?_).symm
      simp only [ieee]
      rw [of64 (convert_lt b64_ok _)]
      exact convert_back b32_ok b64_ok (by decide) (by decide) (by decide) (bits32 b) (hn rfl)
    | _ =>
      obtain ⟨r, rfl, ht, hr⟩ := hy
      exact ⟨r, rfl, trunc_widen ht, hr⟩
  | int k =>
    have hk : Within .f64 k ∧ c.isInt = true := by
      cases c <;> first
        | exact absurd rfl hc.1
        | exact absurd rfl hc.2
        | exact wx.elim
        | (refine ⟨?_, rfl⟩
           have h1 := wx.1
           have h2 := wx.2
           simp only [Code.lo, Code.hi, Code.signed, Code.size] at h1 h2
           simp only [Within]
           omega)
    refine ⟨.f64 (ieee.ofInt64 k), rfl, y, ?_, rfl⟩
    cases d with
    | f64 => exact hy
    | f32 => rw [show y = .f32 (ieee.ofInt32 k) from hy, ← narrow_int hk.1]; rfl
    | _ =>
      have hr := hw hk.2 rfl k rfl
      obtain ⟨r, rfl, hred⟩ := hy
      have : r = k := by
        have h1 := (reduces_iff rfl).1 hred
        have h2 := (reduces_iff rfl).1 (reducesTo_self hr)
        rw [← h1, h2]
      subst this
      refine ⟨r, rfl, ?_, hr⟩
      show b64.trunc (BitVec.ofNat 64 (b64.ofInt r)).toNat = some r
      rw [of64 (ofInt_lt b64_ok _)]
      exact trunc_int b64_ok (ofInt_int b64_ok (within64.1 hk.1))

/-! ### When the result equals the input -/

theorem At.unique {R' : Foot} {T' : TV} (h : At m R T) (h' : At m R' T') (e : R.h = R'.h) : T = T' := by
  have ht : R.t = R'.t := by simpa [Foot.h] using e
  have e1 := h.tensor
  rw [ht, h'.tensor] at e1
  simp only [Option.some.injEq, Block.mk.injEq, true_and, Body.tensor.injEq, TensorS.mk.injEq, Ptr.blk.injEq] at e1
  obtain ⟨-, -, hd, -, hs⟩ := e1
  have e2 := h.storage
  rw [← hs, h'.storage] at e2
  simp only [Option.some.injEq, Block.mk.injEq, true_and, Body.storage.injEq, StorageS.mk.injEq, Ptr.blk.injEq] at e2
  obtain ⟨h1, h2, -, h3⟩ := e2
  have e3 := h.data
  rw [← h3, h'.data] at e3
  simp only [Option.some.injEq, Block.mk.injEq, true_and, Body.bytes.injEq] at e3
  have e4 : T.dims = T'.dims := by
    rcases h.dims with ⟨a, b⟩ | ⟨d, a, b, b'⟩ <;> rcases h'.dims with ⟨a', c⟩ | ⟨d', a', c, c'⟩
    · rw [a, a']
    · rw [b, c] at hd; simp [optPtr] at hd
    · rw [b, c] at hd; simp [optPtr] at hd
    · rw [b, c] at hd
      simp only [optPtr, Ptr.blk.injEq] at hd
      rw [hd, b'] at c'
      simp only [Option.some.injEq, Block.mk.injEq, true_and, Body.i64s.injEq] at c'
      exact dimsCells_inj c'
  cases T; cases T'
  simp_all

theorem encAll_inj (hl : xs.length = zs.length) (wx : ∀ x ∈ xs, x.WT c) (wz : ∀ z ∈ zs, z.WT c) (h : encAll c xs = encAll c zs) : xs = zs := by
  refine List.ext_getElem hl fun k h1 h2 => ?_
  have a : rdElem c (encAll c xs) k = .ok xs[k] := by rw [encAll_eq]; exact rdElem_some (by simp [h1]) (wx _ (List.getElem_mem h1))
  have b : rdElem c (encAll c zs) k = .ok zs[k] := by rw [encAll_eq]; exact rdElem_some (by simp [h2]) (wz _ (List.getElem_mem h2))
  rw [h, b] at a
  exact (Except.ok.inj a).symm

theorem through_WT : ∀ {cs : List Code} {c : Code} {x z : Val}, x.WT c → ThroughCasts fp cs x z → z.WT (lastCode c cs)
  | [], _, _, _, wx, h => by cases h; exact wx
  | c' :: cs, _, _, _, _, ⟨y, hy, h⟩ => through_WT (cs := cs) (cCast_WT (converts_iff.1 hy)) h

theorem through_unique : ∀ {cs : List Code} {x z z' : Val}, ThroughCasts fp cs x z → ThroughCasts fp cs x z' → z = z'
  | [], _, _, _, h, h' => by cases h; cases h'; rfl
  | c' :: cs, _, _, _, ⟨y, hy, h⟩, ⟨y', hy', h'⟩ => by
    have e := converts_iff.1 hy
    rw [converts_iff.1 hy'] at e
    cases e
    exact through_unique h h'

theorem casts_back (wf : m.WF) (h : At m R T) (he : Elems T c xs) (hs : ShapeOK T.dims 8) (h1 : Steps c cs) (hl : lastCode c cs = c)
    (hd : ∀ x ∈ xs, ∃ z, ThroughCasts E.fp cs x z) {h' : Ptr} {m' : Mem} (e : casts cs R.h E m = .ok (.success, h') m') :
    EqualTensors m' h' R.h ↔ ∀ x ∈ xs, ThroughCasts E.fp cs x x := by
  obtain ⟨zs, hz⟩ := choose_through hd
  obtain ⟨R', rfl, wf', f, a⟩ := (casts_computes wf h he hs h1 hz).only e
  rw [hl] at a
  have h0 := h.frame wf f
  have wz : ∀ z ∈ zs, z.WT c := fun z hzm => by
    obtain ⟨k, hk, rfl⟩ := List.getElem_of_mem hzm
    have hk' : k < xs.length := by rw [hz.1]; exact hk
    have := through_WT (he.wt _ (List.getElem_mem hk')) (hz.2 k hk' hk)
    rwa [hl] at this
  constructor
  · rintro ⟨Ra, Rb, T', ea, eb, ha, hb⟩ x hx
    have e1 := a.unique ha ea
    have e2 := h0.unique hb eb
    rw [← e1] at e2
    have e3 := he.bytes
    rw [e2] at e3
    have := encAll_inj hz.1.symm wz he.wt e3
    subst this
    obtain ⟨k, hk, rfl⟩ := List.getElem_of_mem hx
    exact hz.2 k hk hk
  · intro hx
    have : zs = xs := List.ext_getElem hz.1.symm fun k h1 h2 => through_unique (hz.2 k h2 h1) (hx _ (List.getElem_mem h2))
    subst this
    refine ⟨R', R, T, rfl, rfl, ?_, h0⟩
    have hT : (⟨c.dtype, T.device, T.dims, encAll c zs⟩ : TV) = T := by rw [← he.dtype, ← he.bytes]
    rwa [hT] at a

end Aitisa
