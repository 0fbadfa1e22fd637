import Verif.Proof.Neutral
import Verif.Props.Squeeze
import Verif.Props.Conv
import Verif.Props.Range

/-!
# C68: parameters that change nothing
-/

namespace Aitisa

variable {E : Env} {m : Mem} {R : Foot} {T : TV} {c : Code} {xs : List Val}

theorem Elems.whole (he : Elems T c xs) : (⟨c.dtype, T.device, T.dims, encAll c xs⟩ : TV) = T := by
  rw [← he.dtype, ← he.bytes]

theorem Elems.shape (he : Elems T c xs) (h : At m R T) : ShapeOK T.dims c.size := by
  have := h.shape
  rw [he.dtype] at this
  cases c <;> exact this

theorem Elems.mem (he : Elems T c xs) {cs : List Nat} (hc : InRange T.dims cs) : elemAt T.dims xs cs ∈ xs := by
  have hl : lin T.dims cs < xs.length := by rw [he.len]; exact lin_lt hc
  rw [elemAt_get hl]
  exact List.getElem_mem hl

/-! ## Slice, reshape, squeeze -/

theorem whole_dims : ∀ {ds : List Nat}, (∀ d ∈ ds, 0 < d) → sliceDims (whole ds) = ds
  | [], _ => rfl
  | d :: ds, h => by
    have hd := h d (List.mem_cons_self ..)
    have ih := whole_dims fun x hx => h x (List.mem_cons_of_mem _ hx)
    rw [whole] at ih
    simp only [whole, List.map_cons, sliceDims]
    rw [if_neg (by omega), ih]
    simp [ceilDiv]

theorem whole_source : ∀ {ds cs : List Nat}, (∀ d ∈ ds, 0 < d) → InRange ds cs → source (whole ds) cs = cs
  | [], [], _, _ => rfl
  | d :: ds, x :: cs, h, hc => by
    have hd := h d (List.mem_cons_self ..)
    have ih := whole_source (fun x hx => h x (List.mem_cons_of_mem _ hx)) hc.2
    rw [whole] at ih
    simp only [whole, List.map_cons, source]
    rw [if_neg (by omega)]
    simp [ih]

theorem whole_all_fits : ∀ {ds : List Nat}, (∀ d ∈ ds, 0 < d) → SliceFits ds (whole ds)
  | [], _ => trivial
  | d :: ds, h => ⟨⟨h d (List.mem_cons_self ..), by simp, by simp⟩, whole_all_fits fun x hx => h x (List.mem_cons_of_mem _ hx)⟩

theorem le_prod_of_mem : ∀ {ds : List Nat}, (∀ d ∈ ds, 0 < d) → ∀ d ∈ ds, d ≤ prod ds
  | a :: ds, h, d, hd => by
    have hp : 0 < prod ds := prod_pos fun x hx => h x (List.mem_cons_of_mem _ hx)
    rw [prod]
    rcases List.mem_cons.1 hd with rfl | hd
    · exact Nat.le_mul_of_pos_right _ hp
    · exact Nat.le_trans (le_prod_of_mem (fun x hx => h x (List.mem_cons_of_mem _ hx)) d hd) (Nat.le_mul_of_pos_left _ (h a (List.mem_cons_self ..)))

/-- C68, slice: all positions of every axis, step 1, give a tensor equal to the input. -/
theorem C68_slice (wf : m.WF) (h : At m R T) (he : Elems T c xs) (h0 : T.dims ≠ []) (hd : ∀ d ∈ T.dims, 0 < d)
    (hi : prod T.dims ≤ 2147483647) (out : Ptr) :
    Attempts E (slice R.h (bgs (whole T.dims)) (szs (whole T.dims)) (sts (whole T.dims)) out) m T := by
  obtain ⟨ys, ha, hel, hy⟩ := C21_slice (E := E) wf h he h0 (whole_all_fits hd) (fun a ha => by
    obtain ⟨d, hd', rfl⟩ := List.mem_map.1 ha
    have := le_prod_of_mem hd d hd'
    exact ⟨by simp; omega, by simp⟩) (by rw [whole_dims hd]; exact hi) out
  rw [whole_dims hd] at ha hel hy
  have : ys = xs := elems_ext hel.len he.len fun cs hc => by
    obtain ⟨-, v, h1, h2⟩ := hy cs hc
    rw [whole_source hd hc] at h2
    simp [elemAt, List.getD, h1, h2]
  rw [this, he.dtype, he.whole] at ha
  exact ha

/-- C68, reshape: to the dims the tensor already has. -/
theorem C68_reshape (wf : m.WF) (h : At m R T) (out : Ptr) : Creates E (reshape R.h (dimsCells T.dims) T.dims.length out) m out T :=
  C18_reshape wf h T.dims h.shape rfl out

/-- C68, squeeze: a tensor without unit dims, whatever axes are named. -/
theorem C68_squeeze (wf : m.WF) (h : At m R T) (hp : ∀ d ∈ T.dims, 0 < d) (h1 : ∀ d ∈ T.dims, d ≠ 1) {ax : List Nat} (hnd : ax.Nodup)
    (hr : ∀ a ∈ ax, a < T.dims.length) (out : Ptr) : Creates E (squeeze R.h (dimsCells ax) ax.length out) m out T := by
  obtain ⟨ds', hw, hc⟩ := C19_squeeze (E := E) wf h hp hnd hr out
  have : ∀ {A : Nat → Prop} {k : Nat} {ds ds' : List Nat}, (∀ d ∈ ds, d ≠ 1) → Without A k ds ds' → ds' = ds := by
    intro A k ds
    induction ds generalizing k with
    | nil => intro ds' _ h; exact h
    | cons d ds ih =>
      intro ds' h1 h
      rcases h with ⟨e, -⟩ | ⟨-, r, rfl, h⟩
      · exact absurd e (h1 d (List.mem_cons_self ..))
      · rw [ih (fun x hx => h1 x (List.mem_cons_of_mem _ hx)) h]
  rw [this h1 hw] at hc
  exact hc

/-! ## Dropout -/

/-- C68, dropout with a rate below one percent: all elements are kept, whatever the random numbers. -/
theorem C68_dropout {rate : BitVec 64} {n : Int} (wf : m.WF) (h : At m R T) (he : Elems T c xs) (h0 : T.dims ≠ []) (hd : ∀ d ∈ T.dims, 0 < d)
    (hi : prod T.dims ≤ 2147483647) (hr : RateOK E.fp rate) (hn : Percent E.fp rate n) (hl : n ≤ 0) (out : Ptr) :
    Delivers E (dropout R.h rate out) m out c T.device T.dims xs ∨ (¬ E.NoFail ∧ dropout R.h rate out E m = .ub .nullDeref) := by
  rcases C43_dropout wf h he h0 hd hi hr hn out with ⟨ys, k, z, -, hD, hO⟩ | h
  · rw [C43_none hD hl] at hO
    exact .inl hO
  · exact .inr h

/-- Rate 0 is such a rate, and so is 0.009. -/
theorem C68_rate : (RateOK ieee (num 0) ∧ Percent ieee (num 0) 0) ∧ RateOK ieee 0x3F826E978D4FDF3B ∧ Percent ieee 0x3F826E978D4FDF3B 0 := by
  simp only [RateOK, Percent, Converts]
  exact ⟨⟨by decide +kernel, 0, rfl, by decide +kernel, -2147483648, 2147483647, rfl, by decide, by decide⟩, by decide +kernel, 0, rfl,
    by decide +kernel, -2147483648, 2147483647, rfl, by decide, by decide⟩

/-! ## Pooling -/

section
variable {ws : List Win} {B C fuel : Nat}

/-- C68, average pooling with windows of one element: a tensor equal to the input, if there are no NaNs and no minus zeros. -/
theorem C68_avg (hE : Machine E.fp) (wf : m.WF) (h1 : At m R T) (he : Elems T c xs) (hs : T.dims = B :: C :: ws.map Win.x) (hw : 1 ≤ ws.length)
    (hw' : ws.length ≤ 3) (h : ∀ w ∈ ws, w.Fits ∧ w.Small) (hp : ∀ w ∈ ws, w.Plain) (hi : prod (ws.map Win.x) ≤ 2147483647)
    (hf : 1 ≤ fuel) (hf' : prod (ws.map Win.x) ≤ fuel) (hc : c ≠ .i64 ∧ c ≠ .u64) (hx : ∀ x ∈ xs, NotNaN x ∧ ¬ MinusZero x) (out : Ptr) :
    Attempts E (pooling fuel R.h "avg" (dimsCells (ws.map Win.k)) (dimsCells (ws.map Win.s)) (dimsCells (ws.map Win.p))
      (dimsCells (ws.map Win.d)) out) m T := by
  have ho := plain_out fun w hw => ⟨hp w hw, (h w hw).1⟩
  have hk := plain_prod hp
  have := C38_avg (E := E) (fuel := fuel) (zs := xs) wf h1 he hs hw hw' h (by rw [ho, ← hs]; exact he.shape h1) (by rw [ho]; exact hi) (by rw [hk]; decide)
    (by rw [hk]; exact hf) (by rw [ho]; exact hf') (by rw [ho, ← hs]; exact he.len) (fun b ch os hr => by
      rw [ho] at hr ⊢
      rw [hk, plain_elems hp hr.2.2, ← hs]
      on_machine hE
      rw [← hs] at hr
      have wx := elemAt_WT he rfl hr
      have hxx := he.mem hr
      obtain ⟨hn, h0⟩ := hx _ hxx
      obtain ⟨d, hd, hb⟩ := through_double wx hc hn
      refine ⟨d, sum_one wx hd (to_double_not_nan hn hd) (double_not_minus wx hc hn h0 hd), ?_⟩
      have e : ieee.div64 d (ieee.ofInt64 (1 : Nat)) = d := by
        have := (neutral_fmt b64_ok (bits64 d) (to_double_not_nan hn hd)).2.2.2
        simp only [ieee, of64 (ofInt_lt b64_ok _)]
        exact back64 this
      rw [e]; exact hb) out
  rw [ho, ← hs, he.whole] at this
  exact this

/-- C68, max pooling with windows of one element does the same as relu. -/
theorem C68_max (hE : Machine E.fp) (wf : m.WF) (h1 : At m R T) (he : Elems T c xs) (hs : T.dims = B :: C :: ws.map Win.x) (hw : 1 ≤ ws.length)
    (hw' : ws.length ≤ 3) (h : ∀ w ∈ ws, w.Fits ∧ w.Small) (hp : ∀ w ∈ ws, w.Plain) (hi : prod (ws.map Win.x) ≤ 2147483647)
    (hf : 1 ≤ fuel) (hf' : prod (ws.map Win.x) ≤ fuel) (hc : c ≠ .i64 ∧ c ≠ .u64) (out out' : Ptr) :
    ∃ ys, Attempts E (pooling fuel R.h "max" (dimsCells (ws.map Win.k)) (dimsCells (ws.map Win.s)) (dimsCells (ws.map Win.p))
      (dimsCells (ws.map Win.d)) out) m ⟨c.dtype, T.device, T.dims, encAll c ys⟩ ∧ Delivers E (relu R.h out') m out' c T.device T.dims ys := by
  refine ⟨_, ?_, C57_relu hE wf h1 he out'⟩
  have ho := plain_out fun w hw => ⟨hp w hw, (h w hw).1⟩
  have hk := plain_prod hp
  have := C38_max (E := E) (fuel := fuel) (zs := xs.map fun x => if Positive x then x else zeroLike x) wf h1 he hs hw hw' h
    (by rw [ho, ← hs]; exact he.shape h1) (by rw [ho]; exact hi) (by rw [hk]; decide)
    (by rw [hk]; exact hf) (by rw [ho]; exact hf') (by rw [ho, ← hs, List.length_map]; exact he.len) (fun b ch os hr => by
      rw [ho] at hr ⊢
      rw [plain_elems hp hr.2.2, ← hs]
      on_machine hE
      rw [← hs] at hr
      have wx := elemAt_WT he rfl hr
      have hl : lin T.dims (b :: ch :: os) < xs.length := by rw [he.len]; exact lin_lt hr
      rw [elemAt_get (zs := xs.map _) (by rw [List.length_map]; exact hl), List.getElem_map, ← elemAt_get hl]
      have hall : ∀ e ∈ [elemAt T.dims xs (b :: ch :: os)], e.WT c := fun e he => by rw [List.mem_singleton.1 he]; exact wx
      obtain ⟨y, hy⟩ := C57_window_defined hall hc
      obtain ⟨a1, a2⟩ := C57_window hall hc hy
      by_cases hpos : Positive (elemAt T.dims xs (b :: ch :: os))
      · rw [if_pos hpos]
        have := (a1 ⟨_, List.mem_singleton_self _, hpos⟩).1.1
        rw [List.mem_singleton.1 this] at hy
        exact hy
      · rw [if_neg hpos]
        have e := a2 fun e he => by rw [List.mem_singleton.1 he]; exact hpos
        rw [e] at hy
        have : zeroLike (elemAt T.dims xs (b :: ch :: os)) = zeroVal c := by
          rcases wt_cases wx with ⟨rfl, p, e⟩ | ⟨rfl, p, e⟩ | ⟨hi, p, e, -⟩ <;> rw [e]
          · rfl
          · rfl
          · cases c <;> first | exact absurd hi (by decide) | rfl
        rw [this]; exact hy) out
  rw [ho, ← hs] at this
  exact this

end

/-! ## Convolution -/

section
variable {R1 R2 : Foot} {T1 T2 : TV} {ws : List Win} {B C O : Nat} {ys zs : List Val}

/-- C68, convolution with filters that have a single one: output channel `oc` holds the elements of input channel `s oc`, shifted by the position `q oc`
of the one, and zeros where that position is in the padding; exactly, no rounding. -/
theorem C68_conv_pick {s : Nat → Nat} {q : Nat → List Nat} (hE : Machine E.fp) (wf : m.WF) (h1 : At m R1 T1) (h2 : At m R2 T2) (e1 : Elems T1 .f32 xs)
    (e2 : Elems T2 .f32 ys) (s1 : T1.dims = B :: C :: ws.map Win.x) (s2 : T2.dims = O :: C :: ws.map Win.k) (h : ∀ w ∈ ws, w.Fits ∧ w.Wide)
    (hso : ShapeOK (B :: O :: ws.map Win.out) 4) (hC : 0 < C)
    (hsel : ∀ oc, oc < O → s oc < C ∧ InRange (ws.map Win.k) (q oc) ∧ OneAt T2.dims ys oc (s oc) (q oc))
    (hx : ∀ x ∈ xs, Finite x ∧ ¬ MinusZero x) (hl : zs.length = prod (B :: O :: ws.map Win.out))
    (hz : ∀ b oc os, InRange (B :: O :: ws.map Win.out) (b :: oc :: os) → elemAt (B :: O :: ws.map Win.out) zs (b :: oc :: os) =
      match winAt ws os (q oc) with
      | some cs => elemAt T1.dims xs (b :: s oc :: cs)
      | none => .f32 0)
    (st st' : Status) (groups : Int) (out : Ptr) :
    Leaves E (conv (some st) (some st') R1.h R2.h (dimsCells (ws.map Win.s)) (dimsCells (ws.map Win.p)) (dimsCells (ws.map Win.d)) groups out) m out
      (if st = .success then st' else st) ⟨Code.f32.dtype, T1.device, B :: O :: ws.map Win.out, encAll .f32 zs⟩ := by
  obtain ⟨zs', hl', hz', hL⟩ := C40_conv (E := E) wf h1 h2 e1 e2 s1 s2 h hso hC st st' groups out
  suffices zs' = zs by rw [this] at hL; exact hL
  refine elems_ext hl' hl fun cs hc => ?_
  match cs, hc with
  | b :: oc :: os, hc =>
  have hoc : oc < O := hc.2.1
  have hol : ws.length = os.length := by
    have := hc.2.2.length
    rw [List.length_map] at this
    omega
  obtain ⟨k1, k2, k3⟩ := hsel oc hoc
  refine C40_unique (hz' b oc os hc) ⟨zeroVal .f32, hE.zero .f32, ?_⟩
  rw [convTerms_taps, hz b oc os hc]
  have key := dot_key_same hE (c := .f32) (fun t : Nat × Nat => (winAt ws os (unlin (ws.map Win.k) t.2)).map fun cs =>
    (elemAt T1.dims xs (b :: t.1 :: cs), elemAt T2.dims ys (oc :: t.1 :: unlin (ws.map Win.k) t.2))) (s oc, lin (ws.map Win.k) (q oc))
    (taps C (prod (ws.map Win.k))) (taps_nodup ..) (mem_taps.2 ⟨k1, lin_lt k2⟩) (fun t ht p hp => by
      obtain ⟨i, j⟩ := t
      obtain ⟨hi, hj⟩ := mem_taps.1 ht
      obtain ⟨cs, hcs, rfl⟩ := Option.map_eq_some_iff.1 hp
      have rc := winAt_inRange hol (by rw [unlin_length, List.length_map]) hcs
      have r1 : InRange T1.dims (b :: i :: cs) := by rw [s1]; exact ⟨hc.1, hi, rc⟩
      have r2 : InRange T2.dims (oc :: i :: unlin (ws.map Win.k) j) := by rw [s2]; exact ⟨hoc, hi, unlin_inRange hj⟩
      have hf := hx _ (e1.mem r1)
      have ho := k3 i (unlin (ws.map Win.k) j) (by rw [s2]; exact ⟨hi, unlin_inRange hj⟩)
      refine ⟨elemAt_WT e1 rfl r1, elemAt_WT e2 rfl r2, hf.1, hf.2, fun hne => ?_, fun he => ?_⟩
      · rw [if_neg] at ho
        · exact ho
        · rintro ⟨rfl, e⟩
          exact hne (by rw [← e, lin_unlin hj])
      · cases he
        rw [if_pos ⟨rfl, unlin_lin k2⟩] at ho
        exact ho)
  simp only [unlin_lin k2] at key
  cases hw : winAt ws os (q oc) with
  | none => rw [hw] at key; exact key
  | some cs => rw [hw] at key; exact key

/-- C68, convolution with filters of one element that are the identity matrix, stride 1, no padding: the elements of the input, unchanged. -/
theorem C68_conv_same (hE : Machine E.fp) (wf : m.WF) (h1 : At m R1 T1) (h2 : At m R2 T2) (e1 : Elems T1 .f32 xs)
    (e2 : Elems T2 .f32 ys) (s1 : T1.dims = B :: C :: ws.map Win.x) (s2 : T2.dims = C :: C :: ws.map Win.k) (h : ∀ w ∈ ws, w.Fits ∧ w.Wide)
    (hp : ∀ w ∈ ws, w.Plain) (hC : 0 < C) (hid : ∀ oc, oc < C → ∀ ic, ic < C → Stands (ys.getD (oc * C + ic) (.int 0)) (if ic = oc then 1 else 0))
    (hx : ∀ x ∈ xs, Finite x ∧ ¬ MinusZero x) (st st' : Status) (groups : Int) (out : Ptr) :
    Leaves E (conv (some st) (some st') R1.h R2.h (dimsCells (ws.map Win.s)) (dimsCells (ws.map Win.p)) (dimsCells (ws.map Win.d)) groups out) m out
      (if st = .success then st' else st) T1 := by
  have ho := plain_out fun w hw => ⟨hp w hw, (h w hw).1⟩
  have hk := plain_prod hp
  have hq : ∀ p, InRange (ws.map Win.k) p → p = unlin (ws.map Win.k) 0 := fun p hr => by
    have := lin_lt hr
    rw [← unlin_lin hr]
    congr 1
    omega
  have h0 : InRange (ws.map Win.k) (unlin (ws.map Win.k) 0) := unlin_inRange (by omega)
  have := C68_conv_pick (E := E) (s := id) (q := fun _ => unlin (ws.map Win.k) 0) (zs := xs) hE wf h1 h2 e1 e2 s1 s2 h
    (by rw [ho, ← s1]; exact e1.shape h1) hC (fun oc hoc => ⟨hoc, h0, fun ic p hr => by
      rw [s2] at hr ⊢
      have hpp := hq p hr.2
      have := hid oc hoc ic hr.1
      have hl0 : lin (ws.map Win.k) p = 0 := by have := lin_lt hr.2; omega
      have e : lin (C :: C :: ws.map Win.k) (oc :: ic :: p) = oc * C + ic := by
        simp only [lin, prod, hl0, hk]
        simp
      rw [elemAt, e]
      simpa [hpp] using this⟩) hx (by rw [ho, ← s1]; exact e1.len) (fun b oc os hr => by
      rw [ho] at hr ⊢
      rw [plain_win hp hr.2.2, ← s1]
      rfl) st st' groups out
  rw [ho, ← s1, e1.whole] at this
  exact this

end

/-! ## Batch normalisation -/

section
variable {Rs Rb Rm Rv : Foot} {Sc Bi Me Va : TV} {ss bs ms vs : List Val}

/-- C68, batch normalisation with scales 1, biases 0, means 0, variances 1 and an epsilon of zero: the elements of the input, unchanged, unless they are
minus zero or NaN. -/
theorem C68_batchNorm (hE : Machine E.fp) (wf : m.WF) (h : At m R T) (hs : At m Rs Sc) (hb : At m Rb Bi) (hm : At m Rm Me) (hv : At m Rv Va)
    (he : Elems T c xs) (es : Elems Sc c ss) (eb : Elems Bi c bs) (em : Elems Me c ms) (ev : Elems Va c vs)
    (hdev : T.device.type = 0) (ds : Sc.device.type = 0) (db : Bi.device.type = 0) (dm : Me.device.type = 0) (dv : Va.device.type = 0)
    (axis : Nat) (eps : BitVec 64) (out : Ptr) (hreq : ∀ p ∈ bnRequires E.fp T axis Sc Bi Me Va eps, p.1)
    (hpos : ∀ x ∈ T.dims.drop 1, 0 < x) (hsm : BnSmall T axis c)
    (h1 : ∀ s ∈ ss, Stands s 1) (h2 : ∀ s ∈ bs, Stands s 0) (h3 : ∀ s ∈ ms, Stands s 0) (h4 : ∀ s ∈ vs, Stands s 1) (h5 : IsZero (.f64 eps))
    (hx : ∀ x ∈ xs, NotNaN x ∧ ¬ MinusZero x) :
    AttemptsMalloc E (batchNorm R.h axis Rs.h Rb.h Rm.h Rv.h eps out) m T := by
  have hreq' := hreq
  simp only [bnRequires, List.forall_mem_cons, Int.toNat_natCast] at hreq'
  obtain ⟨⟨hr2, -⟩, hax, -, ⟨gs, gb⟩, -, ⟨gm, gv⟩, -⟩ := hreq'
  have hal : axis < T.dims.length := by omega
  have len : ∀ {V : TV} {l : List Val}, Elems V c l → V.dims = [T.dims.getD axis 0] → l.length = T.dims.getD axis 0 := fun e g => by
    rw [e.len, g]; simp [prod]
  have par : ∀ {V : TV} {l : List Val} {n : Int} {ch : Nat}, Elems V c l → V.dims = [T.dims.getD axis 0] → (∀ s ∈ l, Stands s n) →
      ch < T.dims.getD axis 0 → (l.getD ch (.int 0)).WT c ∧ Stands (l.getD ch (.int 0)) n := fun {V l n ch} e g hl hch => by
    have hlt : ch < l.length := by rw [len e g]; exact hch
    refine ⟨elem_WT e hlt, hl _ ?_⟩
    simp only [List.getD, List.getElem?_eq_getElem hlt, Option.getD_some]
    exact List.getElem_mem hlt
  have chan : ∀ cs, InRange T.dims cs → cs.getD axis 0 < T.dims.getD axis 0 := fun cs hc => by
    have := inRange_get hc hal
    simpa [List.getD, hal] using this
  have norm : ∀ cs, InRange T.dims cs → NormTo ieee c eps (ss.getD (cs.getD axis 0) (.int 0)) (bs.getD (cs.getD axis 0) (.int 0))
      (ms.getD (cs.getD axis 0) (.int 0)) (vs.getD (cs.getD axis 0) (.int 0)) (elemAt T.dims xs cs) (elemAt T.dims xs cs) := fun cs hc => by
    have hch := chan cs hc
    obtain ⟨a1, b1⟩ := par es gs h1 hch
    obtain ⟨a2, b2⟩ := par eb gb h2 hch
    obtain ⟨a3, b3⟩ := par em gm h3 hch
    obtain ⟨a4, b4⟩ := par ev gv h4 hch
    obtain ⟨x1, x2⟩ := hx _ (he.mem hc)
    exact norm_neutral (elemAt_WT he rfl hc) a1 a2 a3 a4 x1 x2 b1 b2 b3 b4 h5
  obtain ⟨zs, hl, hz, hA⟩ := C44_batchNorm_partial (E := E) wf h hs hb hm hv he es eb em ev hdev ds db dm dv axis eps out hreq hpos hsm
    (fun ch hch => by
      obtain ⟨a4, b4⟩ := par ev gv h4 hch
      obtain ⟨e, c1, we, c2⟩ := zero_converts h5 c
      have hv1 := one_lit a4 b4
      on_machine hE
      obtain ⟨p1, p2, p3⟩ := lit_one_plain c
      exact ⟨e, litVal c 1, litVal c 1, c1, (by rw [hv1]; exact (zero_op (lit_one_WT c) we p1 p2 c2).1), p3, lit_one_root c⟩)
    (fun cs hc => ⟨_, by on_machine hE; exact norm cs hc⟩)
  have : zs = xs := elems_ext hl he.len fun cs hc => by
    have hch := chan cs hc
    have n := hz cs hc
    on_machine hE at n
    exact normTo_unique (par es gs h1 hch).1 (par eb gb h2 hch).1 (par em gm h3 hch).1 (par ev gv h4 hch).1 (elemAt_WT he rfl hc) n (norm cs hc)
  rw [this, he.whole] at hA
  exact hA

end

/-! ## Softmax -/

/-- C68, softmax along an axis of length 1: all results are 1, if no exponential is zero or infinite. -/
theorem C68_softmax {es : List Val} {a : Nat} (hE : Machine E.fp) (wf : m.WF) (h : At m R T) (he : Elems T c xs)
    (hc : c = .f32 ∨ c = .f64) (ha : a < T.dims.length) (h1 : T.dims.getD a 0 = 1) (hsz : prod T.dims < 4611686018427387904)
    (hes : Pointwise (ExpOf E.fp c) xs es) (hp : ∀ e ∈ es, Positive e ∧ ¬ IsInf e) (out : Ptr) :
    ∃ ys, ys.length = xs.length ∧ (∀ y ∈ ys, Stands y 1) ∧ Tries E (softmax R.h a out) m ⟨T.dtype, T.device, T.dims, encAll c ys⟩ := by
  have hel : es.length = prod T.dims := by rw [← hes.1, he.len]
  refine ⟨List.replicate xs.length (litVal c 1), by simp, fun y hy => by rw [(List.mem_replicate.1 hy).2]; exact lit_one_stands c,
    C37_axis wf h he ha hsz hes (by simp) (fun cs hcs => ?_) out⟩
  have hl : lin T.dims cs < es.length := by rw [hel]; exact lin_lt hcs
  have hla : lineAt T.dims a es cs = [elemAt T.dims es cs] := by
    have h0 := inRange_get hcs ha
    have h1' : T.dims.getD a 1 = 1 := by simpa [List.getD, ha] using h1
    have hcl : a < cs.length := by rw [hcs.length]; exact ha
    have : cs.set a 0 = cs := by
      have e : cs[a] = 0 := by
        have : cs.getD a 0 = cs[a] := by simp [List.getD, hcl]
        omega
      have := List.set_getElem_self hcl
      rw [e] at this
      exact this
    rw [lineAt, h1]
    simp [this]
  have hy : elemAt T.dims (List.replicate xs.length (litVal c 1)) cs = litVal c 1 := by
    rw [elemAt_get (by rw [List.length_replicate, hes.1]; exact hl)]
    simp
  rw [hla, hy, hE.share]
  rw [hE.expOf] at hes
  obtain ⟨p1, p2⟩ := hp (elemAt T.dims es cs) (by rw [elemAt_get hl]; exact List.getElem_mem hl)
  have hw : (elemAt T.dims es cs).WT c := by
    rw [elemAt_get hl]
    obtain ⟨d, -, hd⟩ := hes.2 _ (by rw [hes.1]; exact hl) hl
    exact cCast_WT (converts_iff.1 hd)
  generalize elemAt T.dims es cs = e at *
  have hpv : PlusVal e := by
    cases e <;> first | (rcases hc with rfl | rfl <;> exact False.elim hw) | exact p1.2
  obtain ⟨q1, q2, q3⟩ := plus_double hpv
  have hd : Converts ieee .f64 e (.f64 (asDouble e)) := by
    cases e with
    | int n => exact hpv.elim
    | f32 b => rfl
    | f64 b => rfl
  have hlt : (asDouble e).toNat < b64.infBits := by
    rcases Nat.lt_or_eq_of_le q1 with h | h
    · exact h
    · exact absurd (q2.1 h) p2
  have hne : (asDouble e).toNat ≠ 0 := fun h => q3.1 h p1
  have hs := inf_lt_sign b64_ok
  refine ⟨asDouble e, asDouble e, sum_one hw hd (plus_not_nan b64_ok q1) (by omega), hd, ?_⟩
  have hone : ieee.div64 (asDouble e) (asDouble e) = num 1 := by
    have := (self_fmt b64_ok (bits64 (asDouble e)) (by
      have u := units_signed b64_ok (s := false) (by omega : (asDouble e).toNat < b64.signBit)
      rw [plus_signed, if_pos hlt] at u
      rw [u]; simp)).2 hne (by omega)
    simp only [ieee]
    rw [this]
    rfl
  show Converts ieee c (.f64 (ieee.div64 (asDouble e) (asDouble e))) (litVal c 1)
  rw [hone]
  exact (lit_converts c).2.1

/-! ## Examples -/

def exKi : TV := tvOf .i16 [2, 3] [.int 5, .int (-6), .int 7, .int 8, .int 9, .int (-32768)]

theorem exKi_at : At (Mem.empty.addT exKi) Mem.empty.footT exKi := tvOf_at _ (by simp) rfl ⟨by decide, by decide⟩

example : Attempts okEnv (slice Mem.empty.footT.h (bgs (whole [2, 3])) (szs (whole [2, 3])) (sts (whole [2, 3])) .indet) (Mem.empty.addT exKi) exKi :=
  C68_slice (Mem.addT_wf Mem.empty_wf _) exKi_at (tvOf_elems (by decide) rfl) (by decide) (by decide) (by decide) _

example : Creates okEnv (reshape Mem.empty.footT.h (dimsCells [2, 3]) 2 .indet) (Mem.empty.addT exKi) .indet exKi :=
  C68_reshape (Mem.addT_wf Mem.empty_wf _) exKi_at _

example : Creates okEnv (squeeze Mem.empty.footT.h (dimsCells [1]) 1 .indet) (Mem.empty.addT exKi) .indet exKi :=
  C68_squeeze (Mem.addT_wf Mem.empty_wf _) exKi_at (by decide) (by decide) (ax := [1]) (by decide) (by decide) _

example : Delivers ieeeEnv (dropout Mem.empty.footT.h 0x3F826E978D4FDF3B .indet) (Mem.empty.addT exKi) .indet .i16 ⟨DEVICE_CPU, 0⟩ [2, 3]
    [.int 5, .int (-6), .int 7, .int 8, .int 9, .int (-32768)] ∨
    (¬ ieeeEnv.NoFail ∧ dropout Mem.empty.footT.h 0x3F826E978D4FDF3B .indet ieeeEnv (Mem.empty.addT exKi) = .ub .nullDeref) :=
  C68_dropout (Mem.addT_wf Mem.empty_wf _) exKi_at (tvOf_elems (by decide) rfl) (by decide) (by decide) (by decide) C68_rate.2.1 C68_rate.2.2 (by decide) _

/-- 0.1, plus zero, minus infinity; 1, the smallest subnormal, -2.5. -/
def exKf : TV := tvOf .f32 [1, 2, 3] [.f32 0x3DCCCCCD, .f32 0, .f32 0xFF800000, .f32 0x3F800000, .f32 1, .f32 0xC0200000]

theorem exKf_at : At (Mem.empty.addT exKf) Mem.empty.footT exKf := tvOf_at _ (by simp) rfl ⟨by decide, by decide⟩

theorem exKw_ok : ∀ w ∈ [(⟨3, 1, 1, 0, 1⟩ : Win)], w.Fits ∧ w.Small ∧ w.Wide ∧ w.Plain := by
  intro w hw
  rw [List.mem_singleton.1 hw]
  exact ⟨⟨by decide, by decide, by decide, by decide⟩, ⟨by decide, by decide, by decide⟩, ⟨by decide, by decide, by decide, by decide, by decide⟩, rfl, rfl, rfl⟩

example : Attempts ieeeEnv (pooling 3 Mem.empty.footT.h "avg" (dimsCells [1]) (dimsCells [1]) (dimsCells [0]) (dimsCells [1]) .indet) (Mem.empty.addT exKf)
    exKf :=
  C68_avg (ws := [⟨3, 1, 1, 0, 1⟩]) (B := 1) (C := 2) (fuel := 3) ieee_machine (Mem.addT_wf Mem.empty_wf _) exKf_at (tvOf_elems (by decide) rfl) rfl (by decide)
    (by decide) (fun w hw => ⟨(exKw_ok w hw).1, (exKw_ok w hw).2.1⟩) (fun w hw => (exKw_ok w hw).2.2.2) (by decide) (by decide) (by decide) (by decide)
    (by decide +kernel) _

/-- Without the condition: minus zero becomes plus zero. -/
example : SumsTo ieee (ieee.ofInt64 0) [.f32 0x80000000] 0 :=
  ⟨ieee.widen 0x80000000, rfl, show (0 : BitVec 64) = ieee.add64 (ieee.ofInt64 0) (ieee.widen 0x80000000) by decide +kernel⟩

example : ∃ ys, Attempts ieeeEnv (pooling 3 Mem.empty.footT.h "max" (dimsCells [1]) (dimsCells [1]) (dimsCells [0]) (dimsCells [1]) .indet)
    (Mem.empty.addT exKf) ⟨Code.f32.dtype, ⟨DEVICE_CPU, 0⟩, [1, 2, 3], encAll .f32 ys⟩ ∧
    Delivers ieeeEnv (relu Mem.empty.footT.h .indet) (Mem.empty.addT exKf) .indet .f32 ⟨DEVICE_CPU, 0⟩ [1, 2, 3] ys :=
  C68_max (ws := [⟨3, 1, 1, 0, 1⟩]) (B := 1) (C := 2) (fuel := 3) ieee_machine (Mem.addT_wf Mem.empty_wf _) exKf_at (tvOf_elems (by decide) rfl) rfl (by decide)
    (by decide) (fun w hw => ⟨(exKw_ok w hw).1, (exKw_ok w hw).2.1⟩) (fun w hw => (exKw_ok w hw).2.2.2) (by decide) (by decide) (by decide) (by decide) _ _

/-- Two channels of three elements. -/
def exKg : TV := tvOf .f32 [1, 2, 3] [.f32 0x3DCCCCCD, .f32 0, .f32 0xFF7FFFFF, .f32 0x3F800000, .f32 1, .f32 0xC0200000]

/-- The identity matrix. -/
def exKe : TV := tvOf .f32 [2, 2, 1] [.f32 0x3F800000, .f32 0, .f32 0x80000000, .f32 0x3F800000]

/-- Three filters with windows of two elements: the second channel shifted to the right, the first one in place, the second one in place. -/
def exKs : TV := tvOf .f32 [3, 2, 2] [.f32 0, .f32 0, .f32 0x3F800000, .f32 0, .f32 0, .f32 0x3F800000, .f32 0, .f32 0, .f32 0, .f32 0, .f32 0, .f32 0x3F800000]

example : Leaves ieeeEnv (conv (some .success) (some .success) Mem.empty.footT.h (Mem.empty.addT exKg).footT.h (dimsCells [1]) (dimsCells [0])
    (dimsCells [1]) 1 .indet) ((Mem.empty.addT exKg).addT exKe) .indet .success exKg :=
  C68_conv_same (ws := [⟨3, 1, 1, 0, 1⟩]) (B := 1) (C := 2) ieee_machine (Mem.addT_wf (Mem.addT_wf Mem.empty_wf _) _)
    (addT_old (Mem.addT_wf Mem.empty_wf _) (tvOf_at _ (by simp) rfl ⟨by decide, by decide⟩) _) (tvOf_at _ (by simp) rfl ⟨by decide, by decide⟩)
    (tvOf_elems (by decide) rfl) (tvOf_elems (by decide) rfl) rfl rfl (fun w hw => ⟨(exKw_ok w hw).1, (exKw_ok w hw).2.2.1⟩)
    (fun w hw => (exKw_ok w hw).2.2.2) (by decide) (by decide +kernel) (by decide +kernel) _ _ _ _

example : Leaves ieeeEnv (conv (some .success) (some .success) Mem.empty.footT.h (Mem.empty.addT exKg).footT.h (dimsCells [1]) (dimsCells [1])
    (dimsCells [1]) 1 .indet) ((Mem.empty.addT exKg).addT exKs) .indet .success
    (tvOf .f32 [1, 3, 4] [.f32 0, .f32 0x3F800000, .f32 1, .f32 0xC0200000, .f32 0x3DCCCCCD, .f32 0, .f32 0xFF7FFFFF, .f32 0,
      .f32 0x3F800000, .f32 1, .f32 0xC0200000, .f32 0]) :=
  C68_conv_pick (ws := [⟨3, 2, 1, 1, 1⟩]) (B := 1) (C := 2) (O := 3) (s := fun oc => [1, 0, 1].getD oc 0) (q := fun oc => [[0, 1, 1].getD oc 0]) ieee_machine
    (Mem.addT_wf (Mem.addT_wf Mem.empty_wf _) _)
    (addT_old (Mem.addT_wf Mem.empty_wf _) (tvOf_at _ (by simp) rfl ⟨by decide, by decide⟩) _) (tvOf_at _ (by simp) rfl ⟨by decide, by decide⟩)
    (tvOf_elems (by decide) rfl) (tvOf_elems (by decide) rfl) rfl rfl
    (by intro w hw; rw [List.mem_singleton.1 hw]; exact ⟨⟨by decide, by decide, by decide, by decide⟩, ⟨by decide, by decide, by decide, by decide, by decide⟩⟩)
    ⟨by decide, by decide⟩ (by decide)
    (by
      have h : ∀ oc, oc < 3 → ∀ ic, ic < 2 → ∀ p, p < 2 → Stands (elemAt exKs.dims [.f32 0, .f32 0, .f32 0x3F800000, .f32 0, .f32 0, .f32 0x3F800000,
          .f32 0, .f32 0, .f32 0, .f32 0, .f32 0, .f32 0x3F800000] [oc, ic, p])
          (if ic = [1, 0, 1].getD oc 0 ∧ p = [0, 1, 1].getD oc 0 then 1 else 0) := by decide +kernel
      intro oc ho
      refine ⟨?_, ?_, fun ic p hr => ?_⟩
      · match oc, ho with
        | 0, _ => decide
        | 1, _ => decide
        | 2, _ => decide
      · match oc, ho with
        | 0, _ => exact ⟨by decide, trivial⟩
        | 1, _ => exact ⟨by decide, trivial⟩
        | 2, _ => exact ⟨by decide, trivial⟩
      · match p, hr with
        | [p], hr => simpa [tvOf, exKs] using h oc ho ic hr.1 p hr.2.1)
    (by decide +kernel) rfl
    (by
      have h : ∀ oc, oc < 3 → ∀ o, o < 4 → elemAt [1, 3, 4] [.f32 0, .f32 0x3F800000, .f32 1, .f32 0xC0200000, .f32 0x3DCCCCCD, .f32 0, .f32 0xFF7FFFFF,
          .f32 0, .f32 0x3F800000, .f32 1, .f32 0xC0200000, .f32 0] [0, oc, o] =
          match winAt [⟨3, 2, 1, 1, 1⟩] [o] [[0, 1, 1].getD oc 0] with
          | some cs => elemAt [1, 2, 3] [.f32 0x3DCCCCCD, .f32 0, .f32 0xFF7FFFFF, .f32 0x3F800000, .f32 1, .f32 0xC0200000] (0 :: [1, 0, 1].getD oc 0 :: cs)
          | none => .f32 0 := by decide
      intro b oc os hr
      match b, os, hr with
      | 0, [o], hr => exact h oc hr.2.1 o hr.2.2.1)
    _ _ _ _

def exKo : TV := tvOf .f32 [2] [.f32 0x3F800000, .f32 0x3F800000]
def exKz : TV := tvOf .f32 [2] [.f32 0, .f32 0]

example : AttemptsMalloc ieeeEnv (batchNorm Mem.empty.footT.h 1 (Mem.empty.addT exKf).footT.h ((Mem.empty.addT exKf).addT exKo).footT.h
    ((Mem.empty.addT exKf).addT exKo).footT.h (Mem.empty.addT exKf).footT.h 0 .indet) (((Mem.empty.addT exKf).addT exKo).addT exKz) exKf := by
  have w1 := Mem.addT_wf Mem.empty_wf exKf
  have w2 := Mem.addT_wf w1 exKo
  have ho : At (((Mem.empty.addT exKf).addT exKo).addT exKz) (Mem.empty.addT exKf).footT exKo :=
    addT_old w2 (tvOf_at _ (by simp) rfl ⟨by decide, by decide⟩) _
  have hz : At (((Mem.empty.addT exKf).addT exKo).addT exKz) ((Mem.empty.addT exKf).addT exKo).footT exKz := tvOf_at _ (by simp) rfl ⟨by decide, by decide⟩
  have eo : Elems exKo .f32 _ := tvOf_elems (by decide) rfl
  have ez : Elems exKz .f32 _ := tvOf_elems (by decide) rfl
  exact C68_batchNorm ieee_machine (Mem.addT_wf w2 _) (addT_old w2 (addT_old w1 exKf_at _) _) ho hz hz ho (tvOf_elems (by decide) rfl) eo ez ez eo
    rfl rfl rfl rfl rfl 1 0 .indet
    (by
      simp only [bnRequires, List.forall_mem_cons]
      exact ⟨by decide, by decide, by decide, by decide, by decide, by decide, by simp only [Negative]; decide +kernel, by simp⟩)
    (by decide) ⟨by decide, by decide, by decide, by decide, by decide⟩ (by decide +kernel) (by decide +kernel) (by decide +kernel) (by decide +kernel)
    (.inl rfl) (by decide +kernel)

theorem exKx_exp (x y : BitVec 32) : Pointwise (ExpOf ieee .f32) [.f32 x, .f32 y]
    [.f32 (ieee.narrow (ieee.exp64 (ieee.widen x))), .f32 (ieee.narrow (ieee.exp64 (ieee.widen y)))] := by
  generalize hf : ieee = fp
  refine ⟨rfl, fun i hi _ => ?_⟩
  match i, hi with
  | 0, _ => exact ⟨_, rfl, rfl⟩
  | 1, _ => exact ⟨_, rfl, rfl⟩

/-- Softmax over an axis of length 1. -/
example : ∃ ys : List Val, ys.length = 2 ∧ (∀ y ∈ ys, Stands y 1) ∧
    Tries ieeeEnv (softmax Mem.empty.footT.h 1 .indet) (Mem.empty.addT (tvOf .f32 [2, 1] [.f32 0x3F800000, .f32 0xC0000000]))
      ⟨Code.f32.dtype, ⟨DEVICE_CPU, 0⟩, [2, 1], encAll .f32 ys⟩ :=
  C68_softmax (E := ieeeEnv) (T := tvOf .f32 [2, 1] [.f32 0x3F800000, .f32 0xC0000000]) (a := 1) C59_exp.2.2 (Mem.addT_wf Mem.empty_wf _)
    (tvOf_at _ (by simp) rfl ⟨by decide, by decide⟩) (tvOf_elems (by decide) rfl) (.inl rfl) (by decide) rfl (by decide) (exKx_exp _ _)
    (by decide +kernel) .indet

end Aitisa
