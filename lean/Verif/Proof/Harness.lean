import Verif.Spec.Harness
import Verif.Proof.AutoTest2
import Verif.Proof.Arith

set_option linter.unusedSimpArgs false

/-! # Data of the auto-tests: proofs -/

namespace Aitisa

variable {E : Env} {m m' : Mem}

/-! ### The values -/

theorem wrap_add_wrap (c : Code) (a b : Int) : c.wrap (c.wrap a + b) = c.wrap (a + b) := by
  apply wrap_congr
  have h : c.wrap a % 2 ^ (8 * c.size) = a % 2 ^ (8 * c.size) := by
    unfold Code.wrap
    rw [Int.add_emod, Int.emod_emod_of_dvd _ (Int.dvd_refl _), ← Int.add_emod]
    congr 1; omega
  rw [Int.add_emod, h, ← Int.add_emod]

theorem lo_le_i32 {c : Code} (h : c.size < 4) : -2147483648 < c.lo := by
  cases c <;> simp [Code.size, Code.lo, Code.signed] at h ⊢

theorem hi_le_i32 {c : Code} (h : c.size < 4) : c.hi < 2147483647 := by
  cases c <;> simp [Code.size, Code.hi, Code.signed] at h ⊢

theorem lo_i32 : Code.lo .i32 = -2147483648 := by simp [Code.size, Code.lo, Code.signed]
theorem hi_i32 : Code.hi .i32 = 2147483647 := by simp [Code.size, Code.hi, Code.signed]

theorem naturalAt_int {fp : FloatOps} {c : Code} {i : Nat} {r : Int} (hc : c.isInt = true) (h : ReducesTo c ((i : Int) + 1) r) :
    NaturalAt fp c i (.int r) := by
  cases c <;> first | (simp [Code.isInt] at hc; done) | (simp only [NaturalAt]; exact ⟨r, rfl, h⟩)

theorem WT_int {c : Code} {r : Int} (hc : c.isInt = true) (h : c.lo ≤ r ∧ r ≤ c.hi) : (Val.int r).WT c := by
  cases c <;> first | (simp [Code.isInt] at hc; done) | (simp only [Val.WT]; exact h)

theorem point1_eq : POINT1 = oneTenth := by decide +kernel

theorem natural_f32 (fp : FloatOps) (i : Nat) : ∃ v, naturalVal fp .f32 i = .ok v ∧ NaturalAt fp .f32 i v ∧ v.WT .f32 :=
  ⟨.f32 (fp.narrow (fp.mac64 POINT1 (fp.widen (fp.ofInt32 i)) POINT1)),
    by simp only [naturalVal, cCast, bind, Except.bind, toDouble], by simp only [NaturalAt, point1_eq], by simp only [Val.WT]⟩

theorem natural_f64 (fp : FloatOps) (i : Nat) : ∃ v, naturalVal fp .f64 i = .ok v ∧ NaturalAt fp .f64 i v ∧ v.WT .f64 :=
  ⟨.f64 (fp.mac64 POINT1 (fp.ofInt64 i) POINT1),
    by simp only [naturalVal, cCast, bind, Except.bind, toDouble], by simp only [NaturalAt, point1_eq], by simp only [Val.WT]⟩

theorem evalInt_add1 (p : Code) (a : Int) (hs : p.signed = true) (h1 : p.lo ≤ a + 1) (h2 : a + 1 ≤ p.hi) :
    evalInt p .add a 1 = .ok (a + 1) := by
  simp only [evalInt, BinOp.exact, hs, if_true, if_pos (And.intro h1 h2)]

theorem evalInt_add1u (p : Code) (a : Int) (hs : p.signed = false) : evalInt p .add a 1 = .ok (p.wrap (a + 1)) := by
  simp only [evalInt, BinOp.exact, hs, Bool.false_eq_true, if_false]

theorem cCast_int {fp : FloatOps} {c : Code} (hc : c.isInt = true) (n : Int) : cCast fp c (.int n) = .ok (.int (c.wrap n)) := by
  cases c <;> first | (simp [Code.isInt] at hc; done) | simp only [cCast]

theorem naturalVal_int {fp : FloatOps} {c : Code} {i : Nat} {r : Int} (hc : c.isInt = true) (he : evalInt c.promote .add (c.wrap i) 1 = .ok r) :
    naturalVal fp c i = .ok (.int (c.wrap r)) := by
  have h2 : cBin fp c .add (.int (c.wrap i)) (.int 1) = .ok (.int (c.wrap r)) := by simp only [cBin, he]; rfl
  unfold naturalVal
  rw [cCast_int hc]
  clear he
  generalize c.wrap i = a at *
  generalize c.wrap r = b at *
  show (match c with
    | .f32 | .f64 => cCast fp c (.f64 (fp.mac64 POINT1 (toDouble fp (.int a)) POINT1))
    | c => cBin fp c .add (.int a) (.int 1)) = _
  split
  · simp [Code.isInt] at hc
  · simp [Code.isInt] at hc
  · exact h2

theorem natural_int {fp : FloatOps} {c : Code} {i : Nat} {r : Int} (hc : c.isInt = true) (he : evalInt c.promote .add (c.wrap i) 1 = .ok r)
    (hw : c.wrap r = c.wrap (i + 1)) : ∃ v, naturalVal fp c i = .ok v ∧ NaturalAt fp c i v ∧ v.WT c := by
  refine ⟨.int (c.wrap (i + 1)), ?_, ?_, ?_⟩
  · rw [naturalVal_int hc he, hw]
  · exact naturalAt_int hc ((reduces_iff hc (n := (i : Int) + 1)).2 rfl)
  · exact WT_int hc (wrap_in c ((i : Int) + 1))

theorem natural_small {fp : FloatOps} {c : Code} {i : Nat} (hc : c.isInt = true) (hs : c.size < 4) :
    ∃ v, naturalVal fp c i = .ok v ∧ NaturalAt fp c i v ∧ v.WT c := by
  have h1 := wrap_in c (i : Int)
  have h2 := lo_le_i32 hs
  have h3 := hi_le_i32 hs
  refine natural_int hc ?_ (wrap_add_wrap c i 1)
  have hp : c.promote = .i32 := by unfold Code.promote; rw [if_pos hs]
  rw [hp]
  refine evalInt_add1 _ _ rfl ?_ ?_
  · rw [lo_i32]; omega
  · rw [hi_i32]; omega

theorem hi_big {c : Code} (hs : ¬ c.size < 4) (hg : c.signed = true) : (2147483647 : Int) ≤ c.hi := by
  cases c <;> simp [Code.size, Code.hi, Code.signed] at hs hg ⊢

theorem lo_nonpos (c : Code) : c.lo ≤ 0 := by
  unfold Code.lo
  have : (0 : Int) < 2 ^ (8 * c.size - 1) := Int.pow_pos (by omega)
  split <;> omega

theorem naturalVal_ok (fp : FloatOps) (c : Code) {i : Nat} (h : (i + 1) * c.size ≤ 4294967295) :
    ∃ v, naturalVal fp c i = .ok v ∧ NaturalAt fp c i v ∧ v.WT c := by
  cases hc : c.isInt
  · cases c <;> first | (simp [Code.isInt] at hc; done) | exact natural_f32 fp i | exact natural_f64 fp i
  by_cases hs : c.size < 4
  · exact natural_small hc hs
  have hp : c.promote = c := by unfold Code.promote; rw [if_neg hs]
  cases hg : c.signed
  · refine natural_int hc (by rw [hp]; exact evalInt_add1u _ _ hg) ?_
    rw [wrap_id (wrap_in _ _), wrap_add_wrap]
  · have hlo := lo_nonpos c
    have hhi : (i : Int) + 1 ≤ c.hi := by
      have := hi_big hs hg
      have : (i + 1) * 4 ≤ (i + 1) * c.size := Nat.mul_le_mul_left _ (by omega)
      omega
    have h1 : c.wrap i = i := wrap_id ⟨by omega, by omega⟩
    refine natural_int hc (by rw [hp]; exact evalInt_add1 _ _ hg (by rw [h1]; omega) (by rw [h1]; omega)) (wrap_add_wrap c i 1)

theorem randomVal_ok (c : Code) (r : Nat) : Drawn c (randomVal c r) ∧ (randomVal c r).WT c := by
  have h : (0 : Int) ≤ ((r % 11 : Nat) : Int) ∧ ((r % 11 : Nat) : Int) ≤ 10 := by omega
  have hw : ∀ c : Code, c.isInt = true → c.lo ≤ ((r % 11 : Nat) : Int) ∧ ((r % 11 : Nat) : Int) ≤ c.hi := by
    intro c hc
    have hl : c.lo ≤ 0 := by cases c <;> first | (simp [Code.isInt] at hc; done) | decide
    have hh : 10 ≤ c.hi := by cases c <;> first | (simp [Code.isInt] at hc; done) | decide
    omega
  cases c
  case f32 => exact ⟨⟨_, rfl⟩, trivial⟩
  case f64 => exact ⟨⟨_, rfl⟩, trivial⟩
  all_goals exact ⟨⟨_, rfl, h.1, h.2⟩, hw _ rfl⟩

/-! ### Filling a buffer -/

theorem wrElem_next {c : Code} {xs : List Val} {rest : List Byte} (v : Val) (h : c.size ≤ rest.length) :
    wrElem c (encAll c xs ++ rest) xs.length v = .ok (encAll c (xs ++ [v]) ++ rest.drop c.size) := by
  have hl : (encAll c xs).length = xs.length * c.size := by rw [encAll_eq, encOpt_length, List.length_map]
  unfold wrElem
  rw [if_pos ⟨by omega, by
    rw [Int.add_mul, Int.one_mul, ← Int.natCast_mul, List.length_append, hl]; omega⟩, Int.toNat_natCast]
  congr 1
  unfold splice
  rw [List.take_left' hl]
  have h2 : (encVal c v).length = c.size := encVal_length c v
  rw [List.length_map, h2, List.drop_append, hl, List.drop_eq_nil_of_le (by omega), List.nil_append, Nat.add_sub_cancel_left]
  simp [encAll]

/-- A loop that stores at each index in turn. -/
theorem fill_loop {p n : Nat} {c : Code} {bs : List Byte} (h : m.blk p = some ⟨.own, .bytes bs⟩) (hn : n * c.size ≤ bs.length)
    (g : Nat → Unit → M Unit) (P : Nat → Val → Prop)
    (hg : ∀ i m1, i < n → ∃ v m2, g i () E m1 = storeElem c (.blk p) i v E m2 ∧ P i v ∧ v.WT c ∧ m2.blk = m1.blk ∧ m2.next = m1.next) :
    ∃ xs m', loopN g n 0 () E m = .ok () m' ∧ Filled m m' p c xs (bs.drop (n * c.size)) ∧ xs.length = n ∧
      ∀ i (hi : i < xs.length), P i xs[i] := by
  obtain ⟨_, m', e, xs, hxs, hF, hP⟩ := loopN_inv (E := E) g
    (fun i _ m1 => ∃ xs, xs.length = i ∧ Filled m m1 p c xs (bs.drop (i * c.size)) ∧ ∀ i (hi : i < xs.length), P i xs[i]) n
    (by
      rintro i ⟨⟩ m1 hi ⟨xs, hxs, hF, hP⟩
      obtain ⟨v, m2, hs, hv, wv, hb, hx⟩ := hg i m1 hi
      have hb2 : m2.blk p = _ := (congrFun hb p).trans hF.data
      have hsz : c.size ≤ (bs.drop (i * c.size)).length := by
        have : (i + 1) * c.size ≤ n * c.size := Nat.mul_le_mul_right _ hi
        rw [Nat.add_mul, Nat.one_mul] at this
        rw [List.length_drop]; omega
      refine ⟨(), m2.set p (some ⟨.own, .bytes (encAll c (xs ++ [v]) ++ (bs.drop (i * c.size)).drop c.size)⟩), ?_, xs ++ [v], by simp [hxs], ⟨?_, ?_, ?_, ?_⟩, ?_⟩
      · subst hxs
        rw [hs]
        unfold storeElem
        msimp [run_derefB hb2, wrElem_next (xs := xs) v hsz, run_putBody hb2]
      · rw [Mem.set_blk_same, List.drop_drop, Nat.add_mul, Nat.one_mul]
      · intro b hb'
        rw [Mem.set_blk_ne _ _ hb', hb]; exact hF.other b hb'
      · exact hx.trans hF.next
      · intro x hx
        rcases List.mem_append.1 hx with hx | hx
        · exact hF.wt x hx
        · rw [List.mem_singleton.1 hx]; exact wv
      · intro j hj
        by_cases hjl : j < xs.length
        · rw [List.getElem_append_left hjl]; exact hP j hjl
        · rw [List.getElem_append_right (by omega)]
          have : j = i := by simp at hj; omega
          simpa [this] using hv)
    (s := ()) (m := m) ⟨[], rfl, ⟨by simpa [encAll] using h, fun _ _ => rfl, rfl, fun _ h => nomatch h⟩, fun i hi => by simp at hi⟩
  exact ⟨xs, m', e, hF, hxs, hP⟩

theorem switchCode_toNat (c : Code) : switchCode (c.toNat : Int) = some c := by cases c <;> rfl

theorem div_size_mul (len : Nat) (c : Code) : (len / c.size) * c.size ≤ len := Nat.div_mul_le_self _ _

theorem assign_run (g : Filler) {p len : Nat} {bs : List Byte} (c : Code) (h : m.blk p = some ⟨.own, .bytes bs⟩) (hl : len ≤ bs.length)
    (h32 : len ≤ 4294967295) :
    ∃ xs m', g.assign (.blk p) len c.toNat E m = .ok () m' ∧ Filled m m' p c xs (bs.drop (len / c.size * c.size)) ∧
      xs.length = len / c.size ∧ ∀ i (hi : i < xs.length), g.Puts E.fp c i xs[i] := by
  have hd := div_size_mul len c
  cases g
  · show ∃ xs m', naturalAssign _ _ _ E m = _ ∧ _
    unfold naturalAssign
    rw [switchCode_toNat]
    refine fill_loop h (by omega) _ _ fun i m1 hi => ?_
    have h1 : (i + 1) * c.size ≤ 4294967295 := by
      have : (i + 1) * c.size ≤ len / c.size * c.size := Nat.mul_le_mul_right _ hi
      omega
    obtain ⟨v, e, hv, wv⟩ := naturalVal_ok E.fp c h1
    exact ⟨v, m1, by msimp [getFp, e], hv, wv, rfl, rfl⟩
  · show ∃ xs m', randomAssign _ _ _ E m = _ ∧ _
    unfold randomAssign
    rw [switchCode_toNat]
    refine fill_loop h (by omega) _ _ fun i m1 hi => ?_
    exact ⟨_, { m1 with rtick := m1.rtick + 1 }, rfl, (randomVal_ok c _).1, (randomVal_ok c _).2, rfl, rfl⟩

theorem dtype_table (c : Code) : intToDtype (c.toNat : Int) E m = .ok c.dtype m := by cases c <;> rfl

/-! ### The inputs of the fixtures -/

theorem prod_take_succ' {ds : List Nat} {k : Nat} (h : k < ds.length) : prod (ds.take (k + 1)) = prod (ds.take k) * ds[k] := by
  rw [List.take_succ_eq_append_getElem h]
  generalize ds.take k = a
  induction a with
  | nil => simp [prod]
  | cons x a ih => simp only [List.cons_append, prod, ih, Nat.mul_assoc]

theorem inputElems_run {q : Nat} {k : Origin} {ds : List Nat} (hq : m.blk q = some ⟨k, .i64s (dimsCells ds)⟩)
    (hd : ∀ d ∈ ds, d ≤ 2147483648) :
    inputElems ds.length (.blk q) E m = .ok ((prod ds % 4294967296 : Nat) : Int) m := by
  unfold inputElems forI
  rw [Int.toNat_natCast]
  have := loopN_fn (E := E) (fun j (n : Int) => (do
      let d ← loadI (.blk q) j
      let x ← i64 (n * d)
      return toU32 x : M Int)) (fun j => ((prod (ds.take j) % 4294967296 : Nat) : Int)) (fun _ => m) ds.length (by
    intro j hj
    have hdj := hd _ (List.getElem_mem hj)
    have hlt : prod (ds.take j) % 4294967296 * ds[j] ≤ 9223372036854775807 := by
      have h1 : prod (ds.take j) % 4294967296 ≤ 4294967295 := by omega
      exact Nat.le_trans (Nat.mul_le_mul h1 hdj) (by decide)
    have hv : ((prod (ds.take j) % 4294967296 : Nat) : Int) * (ds[j] : Int) = ((prod (ds.take j) % 4294967296 * ds[j] : Nat) : Int) := by
      rw [Int.natCast_mul]
    have hu : toU32 ((prod (ds.take j) % 4294967296 * ds[j] : Nat) : Int) = ((prod (ds.take (j + 1)) % 4294967296 : Nat) : Int) := by
      rw [prod_take_succ' hj]
      unfold toU32
      rw [← Nat.mod_mul_mod]; omega
    msimp [run_loadI hq (dimsCells_get hj), hv, run_i64_nat hlt, hu])
  simpa [prod] using this

theorem inputLen_run (c : Code) (n : Nat) : inputLen ((n % 4294967296 : Nat) : Int) c.toNat E m = .ok (n * c.size % 4294967296) m := by
  unfold inputLen
  msimp [dtype_table]
  have : toU32 (((n % 4294967296 : Nat) : Int) * (c.dtype.size : Int)) = ((n * c.size % 4294967296 : Nat) : Int) := by
    unfold toU32
    show _ * (c.size : Int) % _ = _
    rw [← Int.natCast_mul]
    have := Nat.mod_mul_mod n c.size 4294967296
    omega
  rw [this, Int.toNat_natCast]

theorem size_dvd (c : Code) : c.size ∣ 4294967296 := by cases c <;> decide

theorem len_exact (n : Nat) (c : Code) : n * c.size % 4294967296 / c.size * c.size = n * c.size % 4294967296 := by
  apply Nat.div_mul_cancel
  exact (Nat.dvd_mod_iff (size_dvd c)).2 (Nat.dvd_mul_left _ _)

/-- Filling a new buffer. -/
theorem assign_new (g : Filler) {p : Nat} (c : Code) (n : Nat)
    (h : m.blk p = some ⟨.own, .bytes (List.replicate (n * c.size % 4294967296) none)⟩) :
    ∃ xs m', g.assign (.blk p) (n * c.size % 4294967296) c.toNat E m = .ok () m' ∧ Filled m m' p c xs [] ∧
      xs.length = n * c.size % 4294967296 / c.size ∧ ∀ i (hi : i < xs.length), g.Puts E.fp c i xs[i] := by
  have hle := len_exact n c
  have hlt : n * c.size % 4294967296 ≤ 4294967295 := by omega
  generalize n * c.size % 4294967296 = len at *
  obtain ⟨xs, m', e, hF, hl, hP⟩ := assign_run (E := E) g c h (by simp) hlt
  rw [hle, List.drop_replicate, Nat.sub_self, List.replicate_zero] at hF
  exact ⟨xs, m', e, hF, hl, hP⟩

theorem Filled.wf {p : Nat} {c : Code} {xs : List Val} {rest : List Byte} (h : Filled m m' p c xs rest) (wf : m.WF) (hp : m.blk p ≠ none) :
    m'.WF := fun b hb => by
  have hb' : m.next ≤ b := h.next ▸ hb
  have : b ≠ p := fun e => hp (e ▸ wf b hb')
  rw [h.other b this]; exact wf b hb'

theorem unary_fill (g : Filler) (wf : m.WF) (o : UnaryInput) (c : Code) {q : Nat} {k : Origin} {ds : List Nat} (hn : o.ndim = ds.length)
    (hq : o.dims = .blk q) (hd : m.blk q = some ⟨k, .i64s (dimsCells ds)⟩) (hb : ∀ d ∈ ds, d ≤ 2147483648) (hc : o.dtype = c.toNat) :
    (∃ p xs m', o.fill g E m = .ok { o with data := .blk p, len := prod ds * c.size % 4294967296 } m' ∧ Supplied m m' p c xs ∧
      xs.length = prod ds * c.size % 4294967296 / c.size ∧ ∀ i (hi : i < xs.length), g.Puts E.fp c i xs[i]) ∨
    (¬ E.MallocOK ∧ o.fill g E m = .abort) := by
  obtain ⟨_, _, _, dev, dat, ln, cnt⟩ := o
  simp only at hn hq hc
  subst hn hq hc
  unfold UnaryInput.fill
  msimp [inputElems_run hd hb, inputLen_run]
  unfold newBytes
  rcases cppNew_mk (E := E) wf (prod ds * c.size % 4294967296) (.bytes (List.replicate (prod ds * c.size % 4294967296) none)) with
    ⟨_, m1, L, e, hF, p, rfl, rfl, hp⟩ | ⟨hE, e⟩
  · obtain ⟨xs, m2, e2, hG, hl, hP⟩ := assign_new (E := E) g c (prod ds) hp
    left
    refine ⟨p, xs, m2, by msimp [e, e2]; rfl, ⟨by simpa using hG.data, (hF.new p (by simp)).1, fun b hb => ?_, hG.wf hF.wf (by simp [hp]), hG.wt⟩, hl, hP⟩
    rw [hG.other b hb]; exact hF.old b (by simpa using hb)
  · exact .inr ⟨hE, by msimp [e]; rfl⟩

theorem binary_fill (g : Filler) (wf : m.WF) (o : BinaryInput) (c1 c2 : Code) {q1 q2 : Nat} {k1 k2 : Origin} {ds1 ds2 : List Nat}
    (hn1 : o.ndim1 = ds1.length) (hn2 : o.ndim2 = ds2.length)
    (hq1 : o.dims1 = .blk q1) (hq2 : o.dims2 = .blk q2)
    (hd1 : m.blk q1 = some ⟨k1, .i64s (dimsCells ds1)⟩) (hd2 : m.blk q2 = some ⟨k2, .i64s (dimsCells ds2)⟩)
    (hb1 : ∀ d ∈ ds1, d ≤ 2147483648) (hb2 : ∀ d ∈ ds2, d ≤ 2147483648)
    (hc1 : o.dtype1 = c1.toNat) (hc2 : o.dtype2 = c2.toNat) :
    (∃ p1 p2 xs ys m', o.fill g E m = .ok { o with
          data1 := .blk p1, len1 := prod ds1 * c1.size % 4294967296, data2 := .blk p2, len2 := prod ds2 * c2.size % 4294967296 } m' ∧
      p1 ≠ p2 ∧ m.next ≤ p1 ∧ m.next ≤ p2 ∧ (∀ b, b ≠ p1 → b ≠ p2 → m'.blk b = m.blk b) ∧ m'.WF ∧
      (m'.blk p1 = some ⟨.own, .bytes (encAll c1 xs)⟩ ∧ ∀ x ∈ xs, x.WT c1) ∧
      (m'.blk p2 = some ⟨.own, .bytes (encAll c2 ys)⟩ ∧ ∀ y ∈ ys, y.WT c2) ∧
      xs.length = prod ds1 * c1.size % 4294967296 / c1.size ∧ ys.length = prod ds2 * c2.size % 4294967296 / c2.size ∧
      (∀ i (hi : i < xs.length), g.Puts E.fp c1 i xs[i]) ∧ ∀ i (hi : i < ys.length), g.Puts E.fp c2 i ys[i]) ∨
    (¬ E.MallocOK ∧ o.fill g E m = .abort) := by
  obtain ⟨_, _, _, dev1, dat1, ln1, _, _, _, dev2, dat2, ln2, cnt⟩ := o
  simp only at hn1 hq1 hc1 hn2 hq2 hc2
  subst hn1 hq1 hc1 hn2 hq2 hc2
  unfold BinaryInput.fill
  msimp [inputElems_run hd1 hb1, inputElems_run hd2 hb2, inputLen_run]
  unfold newBytes
  rcases cppNew_mk (E := E) wf (prod ds1 * c1.size % 4294967296) (.bytes (List.replicate (prod ds1 * c1.size % 4294967296) none)) with
    ⟨_, m1, L, e, hF, p1, rfl, rfl, hp1⟩ | ⟨hE, e⟩
  · rcases cppNew_mk (E := E) hF.wf (prod ds2 * c2.size % 4294967296) (.bytes (List.replicate (prod ds2 * c2.size % 4294967296) none)) with
      ⟨_, m2, L, e2, hF2, p2, rfl, rfl, hp2⟩ | ⟨hE, e2⟩
    · have hne : p1 ≠ p2 := by
        have h1 := hF.lt (b := p1) (by simp)
        have h2 := (hF2.new p2 (by simp)).1
        omega
      have hp1' : m2.blk p1 = _ := (hF2.old p1 (by simpa using hne)).trans hp1
      obtain ⟨xs, m3, e3, hG, hl, hP⟩ := assign_new (E := E) g c1 (prod ds1) hp1'
      have hp2' : m3.blk p2 = _ := (hG.other p2 (Ne.symm hne)).trans hp2
      obtain ⟨ys, m4, e4, hG2, hl2, hP2⟩ := assign_new (E := E) g c2 (prod ds2) hp2'
      left
      refine ⟨p1, p2, xs, ys, m4, by msimp [e, e2, e3, e4]; rfl, hne, (hF.new p1 (by simp)).1,
        Nat.le_trans hF.le (hF2.new p2 (by simp)).1, fun b h1 h2 => ?_, hG2.wf (hG.wf hF2.wf (by simp [hp1'])) (by simp [hp2']),
        ⟨?_, hG.wt⟩, ⟨by simpa using hG2.data, hG2.wt⟩, hl, hl2, hP, hP2⟩
      · rw [hG2.other b h2, hG.other b h1, hF2.old b (by simpa using h2), hF.old b (by simpa using h1)]
      · rw [hG2.other p1 hne]; simpa using hG.data
    · exact .inr ⟨hE, by msimp [e, e2]; rfl⟩
  · exact .inr ⟨hE, by msimp [e]; rfl⟩

/-! ### The comparison -/

theorem first_bad (P : Nat → Prop) (n : Nat) : (∀ i, i < n → P i) ∨ ∃ j, j < n ∧ ¬ P j ∧ ∀ i, i < j → P i := by
  induction n with
  | zero => exact .inl fun i h => by omega
  | succ n ih =>
    rcases ih with h | ⟨j, hj, hn, hlt⟩
    · by_cases hp : P n
      · exact .inl fun i hi => by
          rcases Nat.lt_succ_iff_lt_or_eq.1 hi with h' | rfl
          · exact h i h'
          · exact hp
      · exact .inr ⟨n, by omega, hp, h⟩
    · exact .inr ⟨j, by omega, hn, hlt⟩

variable {R R' : Foot} {T T' : TV} {xs ys : List Val} {c c' : Code}

theorem sameDims_run (h : At m R T) (h' : At m R' T') (hl : T.dims.length = T'.dims.length) (a u : Resolved) (ha : a.ndim = T.dims.length)
    (hd : a.dims = optPtr R.d) (hd' : u.dims = optPtr R'.d) :
    ∃ r, sameDims a u E m = .ok r m ∧
      ((T.dims = T'.dims ∧ r = .inl (prod T.dims : Int)) ∨ (T.dims ≠ T'.dims ∧ r = .inr ())) := by
  have step : ∀ i (hi : i < T.dims.length) (hi' : i < T'.dims.length), (do
      let d ← loadI a.dims i
      let n' ← i64 ((prod (T.dims.take i) : Int) * d)
      let d' ← loadI u.dims i
      if d ≠ d' then return .inr () else return .inl n' : M (Int ⊕ Unit)) E m
        = .ok (if T.dims[i] = T'.dims[i] then .inl (prod (T.dims.take (i + 1)) : Int) else .inr ()) m := by
    intro i hi hi'
    have hp : prod (T.dims.take i) * T.dims[i] ≤ 9223372036854775807 := by
      rw [← prod_take_succ' hi]; exact h.shape.prefix _
    have hv : (prod (T.dims.take i) : Int) * (T.dims[i] : Int) = ((prod (T.dims.take i) * T.dims[i] : Nat) : Int) := by rw [Int.natCast_mul]
    msimp [hd, hd', h.loadDim hi, h'.loadDim hi', hv, run_i64_nat hp]
    by_cases e : T.dims[i] = T'.dims[i]
    · rw [if_pos e, ← prod_take_succ' hi]; simp [e]
    · rw [if_neg e]
      have : ¬ ((T.dims[i] : Int) = (T'.dims[i] : Int)) := by omega
      simp [this]
  unfold sameDims
  rw [ha, Int.toNat_natCast]
  rcases first_bad (fun i => T.dims[i]? = T'.dims[i]?) T.dims.length with hall | ⟨j, hj, hne, hlt⟩
  · obtain ⟨s, m1, e, hs, hm⟩ := loopE_inv (E := E) (fun j (n : Int) => do
      let d ← loadI a.dims j
      let n' ← i64 (n * d)
      let d' ← loadI u.dims j
      if d ≠ d' then return .inr () else return .inl n' : Nat → Int → M (Int ⊕ Unit))
      (fun i s m1 => s = (prod (T.dims.take i) : Int) ∧ m1 = m) T.dims.length (by
        rintro i s m1 hi ⟨rfl, rfl⟩
        have hi' : i < T'.dims.length := by omega
        refine ⟨_, _, ?_, rfl, rfl⟩
        have := hall i hi
        rw [List.getElem?_eq_getElem hi, List.getElem?_eq_getElem hi', Option.some.injEq] at this
        rw [step i hi hi', if_pos this]) (s := 1) (m := m) ⟨by simp [prod], rfl⟩
    subst hm
    refine ⟨_, e, .inl ⟨?_, by rw [hs, List.take_length]⟩⟩
    apply List.ext_getElem? 
    intro i
    by_cases hi : i < T.dims.length
    · exact hall i hi
    · rw [List.getElem?_eq_none (by omega), List.getElem?_eq_none (by omega)]
  · obtain ⟨r, m1, e, hm⟩ := loopE_ret (E := E) (fun j (n : Int) => do
      let d ← loadI a.dims j
      let n' ← i64 (n * d)
      let d' ← loadI u.dims j
      if d ≠ d' then return .inr () else return .inl n' : Nat → Int → M (Int ⊕ Unit))
      (fun i s m1 => s = (prod (T.dims.take i) : Int) ∧ m1 = m) T.dims.length j (fun _ m1 => m1 = m) hj (by
        rintro i s m1 hi ⟨rfl, rfl⟩
        have hi1 : i < T.dims.length := by omega
        have hi' : i < T'.dims.length := by omega
        refine ⟨_, _, ?_, rfl, rfl⟩
        have := hlt i hi
        rw [List.getElem?_eq_getElem hi1, List.getElem?_eq_getElem hi', Option.some.injEq] at this
        rw [step i hi1 hi', if_pos this]) (by
        rintro s m1 ⟨rfl, rfl⟩
        have hi' : j < T'.dims.length := by omega
        rw [List.getElem?_eq_getElem hj, List.getElem?_eq_getElem hi', Option.some.injEq] at hne
        exact ⟨_, _, by rw [step j hj hi', if_neg hne], rfl⟩) (s := 1) (m := m) ⟨by simp [prod], rfl⟩
    subst hm
    exact ⟨_, e, .inr ⟨fun h => hne (by rw [h]), rfl⟩⟩

theorem sameData_run (h : At m R T) (h' : At m R' T') (hx : Elems T c xs) (hy : Elems T' c ys) (hl : xs.length = ys.length)
    (close : Val → Val → Bool) :
    ∃ b, sameData c close (.blk R.p) (.blk R'.p) xs.length E m = .ok b m ∧
      (b = true ↔ Pointwise (fun x y => close x y = true) xs ys) := by
  have step : ∀ i (hi : i < xs.length) (hi' : i < ys.length), (do
      let x ← loadElem c (.blk R.p) i
      let y ← loadElem c (.blk R'.p) i
      if close x y then return .inl () else return .inr () : M (Unit ⊕ Unit)) E m
        = .ok (if close xs[i] ys[i] then .inl () else .inr ()) m := by
    intro i hi hi'
    msimp [h.load hx hi, h'.load hy hi']
    split <;> rfl
  unfold sameData
  rw [Int.toNat_natCast]
  rcases first_bad (fun i => ∀ (hi : i < xs.length) (hi' : i < ys.length), close xs[i] ys[i] = true) xs.length with hall | ⟨j, hj, hne, hlt⟩
  · obtain ⟨s, m1, e, hm⟩ := loopE_inv (E := E) (fun j (_ : Unit) => do
      let x ← loadElem c (.blk R.p) j
      let y ← loadElem c (.blk R'.p) j
      if close x y then return .inl () else return .inr () : Nat → Unit → M (Unit ⊕ Unit))
      (fun _ _ m1 => m1 = m) xs.length (by
        rintro i s m1 hi rfl
        exact ⟨_, _, by rw [step i hi (by omega), if_pos (hall i hi hi (by omega))], rfl⟩) (s := ()) (m := m) rfl
    subst hm
    exact ⟨true, by msimp [e], by simpa using ⟨hl, fun i hi hi' => hall i hi hi hi'⟩⟩
  · have hj' : j < ys.length := by omega
    have hne : ¬ close xs[j] ys[j] = true := fun h => hne fun _ _ => h
    obtain ⟨r, m1, e, hm⟩ := loopE_ret (E := E) (fun j (_ : Unit) => do
      let x ← loadElem c (.blk R.p) j
      let y ← loadElem c (.blk R'.p) j
      if close x y then return .inl () else return .inr () : Nat → Unit → M (Unit ⊕ Unit))
      (fun _ _ m1 => m1 = m) xs.length j (fun _ m1 => m1 = m) hj (by
        rintro i s m1 hi rfl
        have hi1 : i < xs.length := by omega
        exact ⟨_, _, by rw [step i hi1 (by omega), if_pos (hlt i hi hi1 (by omega))], rfl⟩) (by
        rintro s m1 rfl
        exact ⟨_, _, by rw [step j hj hj', if_neg hne], rfl⟩) (s := ()) (m := m) rfl
    subst hm
    exact ⟨false, by msimp [e], by simpa using fun h => hne (h.2 j hj hj')⟩

theorem compare_run (h : At m R T) (h' : At m R' T') (hx : Elems T c xs) (hy : Elems T' c' ys) (dev : Option Nat) (close : Val → Val → Bool)
    {a u : Resolved} (ea : a = ⟨T.dtype, T.device, optPtr R.d, T.dims.length, .blk R.p, (prod T.dims * T.dtype.size : Nat) % 4294967296⟩)
    (eu : u = ⟨T'.dtype, T'.device, optPtr R'.d, T'.dims.length, .blk R'.p, (prod T'.dims * T'.dtype.size : Nat) % 4294967296⟩) :
    ∃ b, compareResults dev c close a u E m = .ok b m ∧ (b = true ↔ Agree dev close T T' xs ys) := by
  subst ea eu
  unfold compareResults
  by_cases h1 : T.dims.length = T'.dims.length
  case neg =>
    refine ⟨false, ?_, by simpa using fun h : Agree dev close T T' xs ys => h1 (congrArg List.length h.dims)⟩
    have : ¬ ((T.dims.length : Int) = (T'.dims.length : Int)) := by omega
    msimp [this]
  by_cases h2 : dev.getD T.device.type = T'.device.type
  case neg =>
    refine ⟨false, ?_, by simpa using fun h : Agree dev close T T' xs ys => h2 h.device.symm⟩
    msimp [h1, h2]
  by_cases h3 : T.dtype.code = T'.dtype.code
  case neg =>
    refine ⟨false, ?_, by simpa using fun h : Agree dev close T T' xs ys => h3 h.dtype⟩
    msimp [h1, h2, h3]
  have hcc : c = c' := by
    apply code_inj
    rw [hx.dtype, hy.dtype] at h3; exact h3
  subst hcc
  obtain ⟨r, e, ⟨hd, rfl⟩ | ⟨hd, rfl⟩⟩ := sameDims_run (E := E) h h' h1
    ⟨T.dtype, T.device, optPtr R.d, T.dims.length, .blk R.p, (prod T.dims * T.dtype.size : Nat) % 4294967296⟩
    ⟨T'.dtype, T'.device, optPtr R'.d, T'.dims.length, .blk R'.p, (prod T'.dims * T'.dtype.size : Nat) % 4294967296⟩ rfl rfl rfl
  · have hl : xs.length = ys.length := by rw [hx.len, hy.len, hd]
    obtain ⟨b, e2, hb⟩ := sameData_run (E := E) h h' hx hy hl close
    refine ⟨b, ?_, hb.trans ⟨fun hp => ⟨hd, h3, h2.symm, hp⟩, fun h => h.elems⟩⟩
    have e3 : sameData c close (.blk R.p) (.blk R'.p) (prod T.dims : Int) E m = .ok b m := by rw [← hx.len]; exact e2
    have h4 : T.dtype = T'.dtype := by rw [hx.dtype, hy.dtype]
    have h5 : prod T.dims = prod T'.dims := by rw [hd]
    msimp [h1, h2, h3]
    rw [h1] at e
    msimp [e]
    rw [h4, h5]
    rw [h5] at e3
    simp [e3]
  · refine ⟨false, ?_, by simpa using fun h : Agree dev close T T' xs ys => hd h.dims⟩
    msimp [h1, h2, h3]
    rw [h1] at e
    msimp [e]

end Aitisa
