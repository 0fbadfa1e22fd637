import Verif.Proof.Conv

/-! # Convolution: the loops -/

namespace Aitisa

variable {E : Env} {m m' : Mem}

/-- The given outcome, or - only if the allocator can fail - a dereference of null. -/
def Upto {α : Type} (E : Env) (r r0 : Res α) : Prop := r = r0 ∨ (¬ E.NoFail ∧ r = .ub .nullDeref)

theorem Upto.bind {α β : Type} {x : M α} {f : α → M β} {a : α} {r : Res β} (hx : Upto E (x E m) (.ok a m')) (hf : Upto E (f a E m') r) :
    Upto E ((x >>= f) E m) r := by
  rcases hx with h | ⟨nf, h⟩
  · unfold Upto at *
    rw [run_bind, h]
    exact hf
  · right
    refine ⟨nf, ?_⟩
    rw [run_bind, h]
    rfl

theorem loopN_upto {σ : Type} (f : Nat → σ → M σ) (S : Nat → σ) (μ : Nat → Mem) (n : Nat)
    (step : ∀ i, i < n → Upto E (f i (S i) E (μ i)) (.ok (S (i + 1)) (μ (i + 1)))) :
    Upto E (loopN f n 0 (S 0) E (μ 0)) (.ok (S n) (μ n)) := by
  suffices H : ∀ k i, i + k = n → Upto E (loopN f k i (S i) E (μ i)) (.ok (S n) (μ n)) from H n 0 (by omega)
  intro k
  induction k with
  | zero =>
    intro i hi
    obtain rfl : i = n := by omega
    exact .inl rfl
  | succ k ih =>
    intro i hi
    exact Upto.bind (step i (by omega)) (ih (i + 1) (by omega))

theorem Temp.upto {p : Ptr} {K : List Nat} {n : Nat} (h : Temp m p K n) (hp : p = .null → ¬ E.NoFail) {hi : Int} (hh : hi ≤ n) :
    Upto E (Aitisa.touch p 0 hi E m) (.ok () m) := by
  by_cases hn : p = .null
  · exact .inr ⟨hp hn, by rw [hn]; exact touch_null ..⟩
  · exact .inl (h.touch (lo := 0) hn (by omega) hh)

section

variable {R1 R2 R : Foot} {T1 T2 T : TV} {xs ys : List Val} {ws : List Win} {B C O : Nat} {pc pi pf pt : Ptr} {mD : Mem}
  {os : List Nat} {b oc ic j : Nat} {t : BitVec 32}

/-- The coordinates of an element of the first block, with its two leading coordinates replaced. -/
theorem coordsAt_run {a b' x y : Nat} {ds : List Nat} (h : At m R T) (hs : T.dims = a :: b' :: ds) (ha : 0 < a) (hb : 0 < b')
    (hj : j < prod ds) : coordsAt R.h j ((ds.length + 2 : Nat) : Int) x y E m = .ok (dimsCells (x :: y :: unlin ds j)) m := by
  have hr := h.shape.rank
  have hl : T.dims.length = ds.length + 2 := by rw [hs]; simp
  have hp : ∀ d ∈ T.dims, 0 < d := by
    rw [hs]
    intro d hd
    simp only [List.mem_cons] at hd
    rcases hd with rfl | rfl | hd
    · exact ha
    · exact hb
    · exact (unlin_inRange hj).pos d hd
  have hle : prod ds ≤ prod T.dims := by
    rw [hs]
    simp only [prod]
    exact Nat.le_trans (Nat.le_mul_of_pos_left _ hb) (Nat.le_mul_of_pos_left _ ha)
  have hc := cells_nat (show ds.length + 2 ≤ 2147483647 by omega)
  have h1 := linidxToCoords_run (E := E) h hp (i := j) (by omega) (buf := List.replicate (ds.length + 2) none) (by rw [hl]; simp)
  have hu : unlin T.dims j = 0 :: 0 :: unlin ds j := by
    rw [hs]
    have hlt : j < b' * prod ds := Nat.lt_of_lt_of_le hj (Nat.le_mul_of_pos_left _ hb)
    simp only [unlin, prod]
    rw [Nat.div_eq_of_lt hlt, Nat.mod_eq_of_lt hlt, Nat.div_eq_of_lt hj, Nat.mod_eq_of_lt hj]
  rw [hu] at h1
  have w0 := run_wr (a := dimsCells (0 :: 0 :: unlin ds j)) (i := 0) (by simp [dimsCells]) (x : Int) E m
  have w1 := run_wr (a := dimsCells (x :: 0 :: unlin ds j)) (i := 1) (by simp [dimsCells]) (y : Int) E m
  rw [show ((0 : Nat) : Int) = 0 from rfl] at w0
  rw [show ((1 : Nat) : Int) = 1 from rfl] at w1
  rw [show (dimsCells (0 :: 0 :: unlin ds j)).set 0 (some (x : Int)) = dimsCells (x :: 0 :: unlin ds j) by simp [dimsCells]] at w0
  rw [show (dimsCells (x :: 0 :: unlin ds j)).set 1 (some (y : Int)) = dimsCells (x :: y :: unlin ds j) by simp [dimsCells]] at w1
  unfold coordsAt
  msimp [hc, h1, w0, w1]

/-- What the loops work on; the output array `R.p` may have any contents. -/
structure ConvCtx (E : Env) (mD : Mem) (R1 R2 R : Foot) (T1 T2 : TV) (xs ys : List Val) (ws : List Win) (B C O : Nat) (pc pi pf pt : Ptr) :
    Prop where
  ok : ConvOK ws
  e1 : Elems T1 .f32 xs
  e2 : Elems T2 .f32 ys
  s1 : T1.dims = B :: C :: ws.map Win.x
  s2 : T2.dims = O :: C :: ws.map Win.k
  a1 : ∀ G, At (mD.arr R.p .f32 (prod (B :: O :: ws.map Win.cOut)) G) R1 T1
  a2 : ∀ G, At (mD.arr R.p .f32 (prod (B :: O :: ws.map Win.cOut)) G) R2 T2
  a3 : ∀ G, ∃ T : TV, T.dims = B :: O :: ws.map Win.cOut ∧ At (mD.arr R.p .f32 (prod (B :: O :: ws.map Win.cOut)) G) R T
  tc : ∀ G, Upto E (touch pc 0 (8 * ((ws.length + 2 : Nat) : Int)) E (mD.arr R.p .f32 (prod (B :: O :: ws.map Win.cOut)) G))
    (.ok () (mD.arr R.p .f32 (prod (B :: O :: ws.map Win.cOut)) G))
  ti : ∀ G, Upto E (touch pi 0 (8 * ((ws.length + 2 : Nat) : Int)) E (mD.arr R.p .f32 (prod (B :: O :: ws.map Win.cOut)) G))
    (.ok () (mD.arr R.p .f32 (prod (B :: O :: ws.map Win.cOut)) G))
  tf : ∀ G, Upto E (touch pf 0 (8 * ((ws.length + 2 : Nat) : Int)) E (mD.arr R.p .f32 (prod (B :: O :: ws.map Win.cOut)) G))
    (.ok () (mD.arr R.p .f32 (prod (B :: O :: ws.map Win.cOut)) G))
  tt : ∀ G, Upto E (touch pt 0 (8 * ((ws.length + 2 : Nat) : Int)) E (mD.arr R.p .f32 (prod (B :: O :: ws.map Win.cOut)) G))
    (.ok () (mD.arr R.p .f32 (prod (B :: O :: ws.map Win.cOut)) G))

/-- The accumulator after one filter position. -/
def tapVal (fp : FloatOps) (ds fs : List Nat) (xs ys : List Val) (ws : List Win) (b oc : Nat) (os : List Nat) (ic : Nat) (t : BitVec 32) (j : Nat) :
    BitVec 32 :=
  match winAt ws os (unlin (ws.map Win.k) j) with
  | none => t
  | some cs => convMac fp t (elemAt ds xs (b :: ic :: cs)) (elemAt fs ys (oc :: ic :: unlin (ws.map Win.k) j))

/-- The accumulator after one channel. -/
def chanVal (fp : FloatOps) (ds fs : List Nat) (xs ys : List Val) (ws : List Win) (b oc : Nat) (os : List Nat) (t : BitVec 32) (ic : Nat) : BitVec 32 :=
  (List.range (prod (ws.map Win.k))).foldl (tapVal fp ds fs xs ys ws b oc os ic) t

theorem elemAt_get {ds cs : List Nat} {zs : List Val} (h : lin ds cs < zs.length) : elemAt ds zs cs = zs[lin ds cs] := by
  simp [elemAt, List.getD, h]

theorem drop2_dims (x y : Nat) (l : List Nat) : List.drop 2 (dimsCells (x :: y :: l)) = dimsCells l := rfl

theorem convTap_run (X : ConvCtx E mD R1 R2 R T1 T2 xs ys ws B C O pc pi pf pt) (ho : InRange (ws.map Win.cOut) os) (hb : b < B) (hoc : oc < O)
    (hic : ic < C) (hj : j < prod (ws.map Win.k)) (G : Nat → Option Val) :
    Upto E (convTap R1.h R2.h (.blk R1.p) (.blk R2.p) pf pt ((ws.length + 2 : Nat) : Int) (ws.map Win.ax) (startsAt ws os) b oc ic j t E
      (mD.arr R.p .f32 (prod (B :: O :: ws.map Win.cOut)) G))
      (.ok (tapVal E.fp T1.dims T2.dims xs ys ws b oc os ic t j) (mD.arr R.p .f32 (prod (B :: O :: ws.map Win.cOut)) G)) := by
  obtain ⟨mG, hG⟩ : ∃ x, x = mD.arr R.p .f32 (prod (B :: O :: ws.map Win.cOut)) G := ⟨_, rfl⟩
  have a1 := X.a1 G
  have a2 := X.a2 G
  have tf := X.tf G
  have tt := X.tt G
  rw [← hG] at a1 a2 tf tt ⊢
  have hq := unlin_inRange hj
  have hk : (ws.map Win.k).length = ws.length := by simp
  have c1 := coordsAt_run (E := E) (x := oc) (y := ic) a2 X.s2 (by omega) (by omega) hj
  rw [hk] at c1
  have rd : rdAll (List.drop 2 (dimsCells (oc :: ic :: unlin (ws.map Win.k) j))) (ws.map Win.ax).length E mG = .ok (ints (unlin (ws.map Win.k) j)) mG := by
    have := rdAll_dims (E := E) (m := mG) (unlin (ws.map Win.k) j)
    rw [unlin_length, hk] at this
    rw [drop2_dims, List.length_map]
    exact this
  unfold convTap
  refine Upto.bind tf (Upto.bind (.inl c1) (Upto.bind (.inl rd) (Upto.bind tt (Upto.bind (.inl (convProbe_run X.ok ho hq)) (.inl ?_)))))
  unfold tapVal
  cases hw : winAt ws os (unlin (ws.map Win.k) j) with
  | none => rfl
  | some cs =>
    have hol : ws.length = os.length := by have := ho.length; simpa using this.symm
    have hql : ws.length = (unlin (ws.map Win.k) j).length := by rw [unlin_length]; simp
    have hin : InRange T1.dims (b :: ic :: cs) := by rw [X.s1]; exact ⟨hb, hic, winAt_inRange hol hql hw⟩
    have hfin : InRange T2.dims (oc :: ic :: unlin (ws.map Win.k) j) := by rw [X.s2]; exact ⟨hoc, hic, hq⟩
    have o1 := coordsToOffset_run (E := E) a1 hin
    have o2 := coordsToOffset_run (E := E) a2 hfin
    rw [show T1.dims.length = ws.length + 2 by rw [X.s1]; simp] at o1
    rw [show T2.dims.length = ws.length + 2 by rw [X.s2]; simp] at o2
    have l1 : lin T1.dims (b :: ic :: cs) < xs.length := by rw [X.e1.len]; exact lin_lt hin
    have l2 : lin T2.dims (oc :: ic :: unlin (ws.map Win.k) j) < ys.length := by rw [X.e2.len]; exact lin_lt hfin
    simp only [Option.map_some, convAdd]
    rw [show ((b : Int) :: (ic : Int) :: ints cs) = ints (b :: ic :: cs) from rfl, of_ints]
    msimp [o1, o2, a1.load X.e1 l1, a2.load X.e2 l2, elemAt_get l1, elemAt_get l2]

theorem foldl_range_succ {α : Type} (f : α → Nat → α) (a : α) (n : Nat) :
    (List.range (n + 1)).foldl f a = f ((List.range n).foldl f a) n := by
  rw [List.range_succ, List.foldl_append]; rfl

/-- One channel: the accumulator is stored at position `n`. -/
theorem convChan_run (X : ConvCtx E mD R1 R2 R T1 T2 xs ys ws B C O pc pi pf pt) (ho : InRange (ws.map Win.cOut) os) (hb : b < B) (hoc : oc < O)
    (hic : ic < C) {n : Nat} (hn : lin (B :: O :: ws.map Win.cOut) (b :: oc :: os) = n) {G H : Nat → Option Val}
    (hH : ∀ i, i < prod (B :: O :: ws.map Win.cOut) → H i = if i = n then some (.f32 (chanVal E.fp T1.dims T2.dims xs ys ws b oc os t ic)) else G i) :
    Upto E (convChan R1.h R2.h R.h (.blk R1.p) (.blk R2.p) (.blk R.p) pf pt ((ws.length + 2 : Nat) : Int) (ws.map Win.ax) (startsAt ws os) b oc
      (prod (ws.map Win.k)) (dimsCells (b :: oc :: os)) ic t E (mD.arr R.p .f32 (prod (B :: O :: ws.map Win.cOut)) G))
      (.ok (chanVal E.fp T1.dims T2.dims xs ys ws b oc os t ic) (mD.arr R.p .f32 (prod (B :: O :: ws.map Win.cOut)) H)) := by
  have hloop := loopN_upto (E := E) (convTap R1.h R2.h (.blk R1.p) (.blk R2.p) pf pt ((ws.length + 2 : Nat) : Int) (ws.map Win.ax) (startsAt ws os) b oc ic)
    (fun j => (List.range j).foldl (tapVal E.fp T1.dims T2.dims xs ys ws b oc os ic) t)
    (fun _ => mD.arr R.p .f32 (prod (B :: O :: ws.map Win.cOut)) G) (prod (ws.map Win.k)) (by
      intro j hj
      rw [foldl_range_succ]
      exact convTap_run X ho hb hoc hic hj G)
  obtain ⟨T, hs, a3⟩ := X.a3 G
  have hin : InRange T.dims (b :: oc :: os) := by rw [hs]; exact ⟨hb, hoc, ho⟩
  have o3 := coordsToOffset_run (E := E) a3 hin
  rw [show T.dims.length = ws.length + 2 by rw [hs]; simp, hs, hn] at o3
  have hlt : n < prod (B :: O :: ws.map Win.cOut) := by rw [← hn, ← hs]; exact lin_lt hin
  unfold convChan
  refine Upto.bind hloop (Upto.bind (.inl o3) (Upto.bind (.inl (storeArr hlt hH)) (.inl rfl)))

/-- The element that is produced for position `b, oc, os`. -/
def convVal (fp : FloatOps) (ds fs : List Nat) (xs ys : List Val) (ws : List Win) (C b oc : Nat) (os : List Nat) : BitVec 32 :=
  (List.range C).foldl (chanVal fp ds fs xs ys ws b oc os) (fp.narrow (fp.ofInt64 0))

/-- One output element.  Without channels nothing is stored. -/
theorem convElem_run (X : ConvCtx E mD R1 R2 R T1 T2 xs ys ws B C O pc pi pf pt) (hb : b < B) (hoc : oc < O) {k n : Nat}
    (hk : k < prod (ws.map Win.cOut)) (hn : (b * O + oc) * prod (ws.map Win.cOut) + k = n) {G H : Nat → Option Val} (hG : G n = none)
    (hH : ∀ i, i < prod (B :: O :: ws.map Win.cOut) → H i =
      if i = n ∧ 0 < C then some (.f32 (convVal E.fp T1.dims T2.dims xs ys ws C b oc (unlin (ws.map Win.cOut) k))) else G i) :
    Upto E (convElem R1.h R2.h R.h (.blk R1.p) (.blk R2.p) (.blk R.p) pc pi pf pt ((ws.length + 2 : Nat) : Int) (ws.map Win.ax)
      (prod (ws.map Win.k)) C b oc k E (mD.arr R.p .f32 (prod (B :: O :: ws.map Win.cOut)) G))
      (.ok () (mD.arr R.p .f32 (prod (B :: O :: ws.map Win.cOut)) H)) := by
  have ho := unlin_inRange hk
  have hkl : (ws.map Win.cOut).length = ws.length := by simp
  obtain ⟨T, hs, a3⟩ := X.a3 G
  have c3 := coordsAt_run (E := E) (x := b) (y := oc) a3 hs (by omega) (by omega) hk
  rw [hkl] at c3
  have hlin : lin (B :: O :: ws.map Win.cOut) (b :: oc :: unlin (ws.map Win.cOut) k) = n := by
    rw [lin_input, lin_unlin hk, ← Nat.mul_assoc, ← Nat.add_mul, hn]
  have rd : rdAll (List.drop 2 (dimsCells (b :: oc :: unlin (ws.map Win.cOut) k))) (ws.map Win.ax).length E
      (mD.arr R.p .f32 (prod (B :: O :: ws.map Win.cOut)) G) =
      .ok (ints (unlin (ws.map Win.cOut) k)) (mD.arr R.p .f32 (prod (B :: O :: ws.map Win.cOut)) G) := by
    have := rdAll_dims (E := E) (m := mD.arr R.p .f32 (prod (B :: O :: ws.map Win.cOut)) G) (unlin (ws.map Win.cOut) k)
    rw [unlin_length, hkl] at this
    rw [drop2_dims, List.length_map]
    exact this
  have hloop := loopN_upto (E := E) (convChan R1.h R2.h R.h (.blk R1.p) (.blk R2.p) (.blk R.p) pf pt ((ws.length + 2 : Nat) : Int) (ws.map Win.ax)
      (startsAt ws (unlin (ws.map Win.cOut) k)) b oc (prod (ws.map Win.k)) (dimsCells (b :: oc :: unlin (ws.map Win.cOut) k)))
    (fun i => (List.range i).foldl (chanVal E.fp T1.dims T2.dims xs ys ws b oc (unlin (ws.map Win.cOut) k)) (E.fp.narrow (E.fp.ofInt64 0)))
    (fun i => mD.arr R.p .f32 (prod (B :: O :: ws.map Win.cOut)) fun x => if x = n ∧ 0 < i then
      some (.f32 ((List.range i).foldl (chanVal E.fp T1.dims T2.dims xs ys ws b oc (unlin (ws.map Win.cOut) k)) (E.fp.narrow (E.fp.ofInt64 0)))) else G x) C (by
      intro ic hic
      rw [foldl_range_succ]
      refine convChan_run X ho hb hoc hic hlin fun i _ => ?_
      by_cases h : i = n
      · simp [h]
      · simp [h])
  have h0 : (mD.arr R.p .f32 (prod (B :: O :: ws.map Win.cOut)) fun x => if x = n ∧ 0 < 0 then
      some (.f32 ((List.range 0).foldl (chanVal E.fp T1.dims T2.dims xs ys ws b oc (unlin (ws.map Win.cOut) k)) (E.fp.narrow (E.fp.ofInt64 0)))) else G x) =
      mD.arr R.p .f32 (prod (B :: O :: ws.map Win.cOut)) G := Mem.arr_congr _ _ _ fun i _ => by simp
  have h1 : (mD.arr R.p .f32 (prod (B :: O :: ws.map Win.cOut)) fun x => if x = n ∧ 0 < C then
      some (.f32 ((List.range C).foldl (chanVal E.fp T1.dims T2.dims xs ys ws b oc (unlin (ws.map Win.cOut) k)) (E.fp.narrow (E.fp.ofInt64 0)))) else G x) =
      mD.arr R.p .f32 (prod (B :: O :: ws.map Win.cOut)) H := Mem.arr_congr _ _ _ fun i hi => (hH i hi).symm
  simp only [h0, h1] at hloop
  unfold convElem
  exact Upto.bind (X.tc G) (Upto.bind (.inl c3) (Upto.bind (.inl rd) (Upto.bind (X.ti G) (Upto.bind (.inl (convStart_run X.ok ho))
    (Upto.bind (a := E.fp) (m' := mD.arr R.p .f32 (prod (B :: O :: ws.map Win.cOut)) G) (.inl rfl) (Upto.bind hloop (.inl rfl)))))))

end

end Aitisa
