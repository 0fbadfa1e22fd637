import Verif.Spec.BatchNorm
import Verif.Spec.Example
import Verif.Proof.BatchNormTop
import Verif.Proof.BatchNorm8
import Verif.Props.Elementwise
import Verif.Props.Dot

/-!
# Properties C44, C45: batch normalisation
-/

namespace Aitisa

variable {E : Env} {m : Mem} {R Rs Rb Rm Rv : Foot} {T Sc Bi Me Va : TV} {c : Code} {xs ss bs ms vs : List Val}

theorem dims_one {ds : List Nat} {n : Nat} : ds = [n] ↔ prod ds = n ∧ ds.length = 1 := by
  constructor
  · rintro rfl; simp [prod]
  · rintro ⟨hp, hl⟩
    match ds, hl with
    | [d], _ => simp [prod] at hp; rw [hp]

theorem bnPair_run {nc : M Int} {n code : Nat} (ha : At m Rs Sc) (hb : At m Rb Bi) (hn : nc E m = .ok (n : Int) m) :
    bnPair code nc Rs.h Rb.h E m = .ok
      (if ¬ (Sc.dtype.code = code ∧ Bi.dtype.code = code) then .typeMismatch
       else if ¬ (Sc.dims = [n] ∧ Bi.dims = [n]) then .dimensionsMismatch else .success) m := by
  unfold bnPair
  by_cases h1 : Sc.dtype.code = code
  · by_cases h2 : Bi.dtype.code = code
    · have hz : (¬ ((prod Sc.dims : Int) = n) ∨ ¬ ((prod Bi.dims : Int) = n)) ↔ ¬ (prod Sc.dims = n ∧ prod Bi.dims = n) := by omega
      have hr : (¬ ((Sc.dims.length : Int) = 1) ∨ ¬ ((Bi.dims.length : Int) = 1)) ↔ ¬ (Sc.dims.length = 1 ∧ Bi.dims.length = 1) := by omega
      by_cases hs : prod Sc.dims = n ∧ prod Bi.dims = n
      · by_cases hl : Sc.dims.length = 1 ∧ Bi.dims.length = 1
        · have hd : Sc.dims = [n] ∧ Bi.dims = [n] := ⟨dims_one.2 ⟨hs.1, hl.1⟩, dims_one.2 ⟨hs.2, hl.2⟩⟩
          msimp [ha.tDtype, hb.tDtype, ha.tSize, hb.tSize, ha.tNdim, hb.tNdim, hn, h1, h2, hd.1, hd.2, prod]
          simp
        · have hd : ¬ (Sc.dims = [n] ∧ Bi.dims = [n]) := fun h => hl ⟨(dims_one.1 h.1).2, (dims_one.1 h.2).2⟩
          msimp [ha.tDtype, hb.tDtype, ha.tSize, hb.tSize, ha.tNdim, hb.tNdim, hn, h1, h2]
          rw [if_neg (fun h => hz.1 h hs), if_pos (hr.2 hl)]
          simp [hd, run_pure]
      · have hd : ¬ (Sc.dims = [n] ∧ Bi.dims = [n]) := fun h => hs ⟨(dims_one.1 h.1).1, (dims_one.1 h.2).1⟩
        msimp [ha.tDtype, hb.tDtype, ha.tSize, hb.tSize, hn, h1, h2]
        rw [if_pos (hz.2 hs)]
        simp [hd, run_pure]
    · msimp [ha.tDtype, hb.tDtype, h1, h2]
  · msimp [ha.tDtype, h1]

theorem bnCheck_run {axis : Int} {eps : BitVec 64} (h : At m R T) (hs : At m Rs Sc) (hb : At m Rb Bi) (hm : At m Rm Me) (hv : At m Rv Va) :
    ∃ st, bnCheck R.h axis Rs.h Rb.h Rm.h Rv.h eps E m = .ok st m ∧
      (FirstFails (bnRequires E.fp T axis Sc Bi Me Va eps) st ∨ (st = .success ∧ ∀ p ∈ bnRequires E.fp T axis Sc Bi Me Va eps, p.1)) := by
  unfold bnCheck
  by_cases h1 : 2 ≤ T.dims.length ∧ T.dims.length ≤ 5
  · by_cases h2 : axis = 1 ∨ axis = T.dims.length - 1
    · have hd : tDim R.h axis E m = .ok (T.dims.getD axis.toNat 0 : Int) m := by
        have hi : axis.toNat < T.dims.length := by omega
        have := h.dimI (E := E) (k := axis) (i := axis.toNat) (by omega) (List.getElem?_eq_getElem hi)
        rw [this]; simp [List.getD_eq_getElem?_getD, hi]
      have p1 := bnPair_run (code := T.dtype.code) hs hb hd
      have p2 := bnPair_run (code := T.dtype.code) hm hv hd
      obtain ⟨e, he⟩ : ∃ e, e = E.fp.lt64 eps (E.fp.ofInt64 0) := ⟨_, rfl⟩
      msimp [h.tDtype, h.tNdim]
      rw [if_neg (by omega), if_neg (by omega)]
      msimp [p1]
      have hN : Negative E.fp (.f64 eps) ↔ E.fp.lt64 eps (E.fp.ofInt64 0) = true := Iff.rfl
      by_cases a1 : Sc.dtype.code = T.dtype.code ∧ Bi.dtype.code = T.dtype.code
      · by_cases a2 : Sc.dims = [T.dims.getD axis.toNat 0] ∧ Bi.dims = [T.dims.getD axis.toNat 0]
        · rw [if_neg (not_not.2 a1), if_neg (not_not.2 a2)]
          msimp [p2]
          by_cases a3 : Me.dtype.code = T.dtype.code ∧ Va.dtype.code = T.dtype.code
          · by_cases a4 : Me.dims = [T.dims.getD axis.toNat 0] ∧ Va.dims = [T.dims.getD axis.toNat 0]
            · rw [if_neg (not_not.2 a3), if_neg (not_not.2 a4)]
              rw [if_neg (by simp)]
              by_cases a5 : E.fp.lt64 eps (E.fp.ofInt64 0) = true
              · refine ⟨.invalidArgument, by simp [a5], .inl ?_⟩
                simp [bnRequires, FirstFails, h1, h2, a1, a2, a3, a4, hN, a5]
              · refine ⟨.success, by simp [a5], .inr ⟨rfl, ?_⟩⟩
                simp [bnRequires, h1, h2, a1, a2, a3, a4, hN, a5]
            · refine ⟨.dimensionsMismatch, ?_, .inl ?_⟩
              · rw [if_neg (not_not.2 a3), if_pos a4]; msimp []
              · simp only [bnRequires, FirstFails]; simp only [h1, h2, a1, a2, a3, a4]; simp
          · refine ⟨.typeMismatch, ?_, .inl ?_⟩
            · rw [if_pos a3]; msimp []
            · simp only [bnRequires, FirstFails]; simp only [h1, h2, a1, a2, a3]; simp
        · refine ⟨.dimensionsMismatch, ?_, .inl ?_⟩
          · rw [if_neg (not_not.2 a1), if_pos a2]; msimp []
          · simp only [bnRequires, FirstFails]; simp only [h1, h2, a1, a2]; simp
      · refine ⟨.typeMismatch, ?_, .inl ?_⟩
        · rw [if_pos a1]; msimp []
        · simp only [bnRequires, FirstFails]; simp only [h1, h2, a1]; simp
    · refine ⟨.invalidArgument, ?_, .inl (.inr ⟨h1, .inl ⟨h2, rfl⟩⟩)⟩
      msimp [h.tDtype, h.tNdim]
      rw [if_neg (by omega), if_pos (by omega)]
  · refine ⟨.dimensionsMismatch, ?_, .inl (.inl ⟨h1, rfl⟩)⟩
    msimp [h.tDtype, h.tNdim]
    rw [if_pos (by omega)]

theorem FirstFails.unique {l : List (Prop × Status)} {s s' : Status} (h : FirstFails l s) (h' : FirstFails l s') : s = s' := by
  induction l with
  | nil => exact h.elim
  | cons p l ih =>
    rcases h with ⟨n, rfl⟩ | ⟨y, h⟩ <;> rcases h' with ⟨n', rfl⟩ | ⟨y', h'⟩
    · rfl
    · exact absurd y' n
    · exact absurd y n'
    · exact ih h h'

theorem FirstFails.not_all {l : List (Prop × Status)} {s : Status} (h : FirstFails l s) : ¬ ∀ p ∈ l, p.1 := by
  induction l with
  | nil => exact h.elim
  | cons p l ih =>
    intro ha
    rcases h with ⟨n, _⟩ | ⟨_, h⟩
    · exact n (ha p (by simp))
    · exact ih h fun q hq => ha q (by simp [hq])

/-! ## C44 -/

theorem normTo_iff {fp : FloatOps} {c : Code} {eps : BitVec 64} {sc bi me va x r e d : Val} (hs : sc.WT c) (hb : bi.WT c) (hm : me.WT c)
    (hv : va.WT c) (hx : x.WT c) (he : cCast fp c (.f64 eps) = .ok e) (hd : DenStep fp c e va d) :
    NormTo fp c eps sc bi me va x r ↔ StepTo fp c sc bi me d x r := by
  have hew := cCast_WT he
  obtain ⟨t, ht, hn, hr⟩ := hd
  have hdw : d.WT c := cCast_WT (c := c) (show cCast fp c _ = .ok d from by unfold sqrtF at hr; exact hr)
  constructor
  · rintro ⟨e', t', d', a, b, p, h1, h2, h3, h4, h5, h6, h7, h8⟩
    rw [converts_iff, he] at h1; cases h1
    rw [opResult_iff hv hew, ht] at h2; cases h2
    rw [rootOf_iff, hr] at h4; cases h4
    rw [opResult_iff hx hm] at h5
    have ha := cBin_WT hx hm h5
    rw [opResult_iff ha hdw] at h6
    have hb' := cBin_WT ha hdw h6
    rw [opResult_iff hs hb'] at h7
    have hp := cBin_WT hs hb' h7
    rw [opResult_iff hp hb] at h8
    exact ⟨a, b, p, h5, h6, h7, h8⟩
  · rintro ⟨a, b, p, h5, h6, h7, h8⟩
    have ha := cBin_WT hx hm h5
    have hb' := cBin_WT ha hdw h6
    have hp := cBin_WT hs hb' h7
    exact ⟨e, t, d, a, b, p, converts_iff.2 he, (opResult_iff hv hew).2 ht, (fun hh => by rw [← isNeg_iff, hn] at hh; cases hh), rootOf_iff.2 hr,
      (opResult_iff hx hm).2 h5, (opResult_iff ha hdw).2 h6, (opResult_iff hs hb').2 h7, (opResult_iff hp hb).2 h8⟩

/-- Sample, channel and position within the channel. -/
theorem cell_split {d C : Nat} {pre post cs : List Nat} (hc : InRange (d :: (pre ++ C :: post)) cs) :
    ∃ s ch k, s < d ∧ ch < C ∧ k < prod (pre ++ post) ∧ cellPos d pre C post s ch k = lin (d :: (pre ++ C :: post)) cs ∧
      cs.getD (1 + pre.length) 0 = ch := by
  obtain ⟨s, ch, k, hs, hch, hk, e⟩ := exists_cell (lin_lt hc)
  refine ⟨s, ch, k, hs, hch, hk, e, ?_⟩
  have hu := unlin_inRange hk
  have hl := hu.length
  simp only [List.length_append] at hl
  have hlt : ((unlin (pre ++ post) k).take pre.length).length = pre.length := by rw [List.length_take]; omega
  have hr : InRange (d :: (pre ++ C :: post)) (cellIdx pre.length s ch (unlin (pre ++ post) k)) := cellIdx_inRange hs hch hu
  have : cs = cellIdx pre.length s ch (unlin (pre ++ post) k) := by
    have e1 := unlin_lin hc
    rw [← e, cellPos, unlin_lin hr] at e1
    exact e1.symm
  rw [this, cellIdx, Nat.add_comm]
  simp [List.getD_eq_getElem?_getD, hlt]

theorem batchNorm_main {d C : Nat} {pre post : List Nat} (wf : m.WF) (h : At m R T) (hs : At m Rs Sc) (hb : At m Rb Bi) (hm : At m Rm Me)
    (hv : At m Rv Va) (eps : BitVec 64) (out : Ptr)
    (hx : Elems T c xs) (es : Elems Sc c ss) (eb : Elems Bi c bs) (em : Elems Me c ms) (ev : Elems Va c vs)
    (hdev : T.device.type = 0) (ds : Sc.device.type = 0) (db : Bi.device.type = 0) (dm : Me.device.type = 0) (dv : Va.device.type = 0)
    (hds : T.dims = d :: (pre ++ C :: post)) (hax : pre = [] ∨ post = [])
    (hck : bnCheck R.h ((1 + pre.length : Nat) : Int) Rs.h Rb.h Rm.h Rv.h eps E m = .ok .success m)
    (gs : Sc.dims = [C]) (gb : Bi.dims = [C]) (gm : Me.dims = [C]) (gv : Va.dims = [C]) (hr5 : T.dims.length ≤ 5)
    (hC0 : 0 < C) (hpos : ∀ x ∈ pre ++ post, 0 < x) (hd : d ≤ 2147483647) (hC : C ≤ 2147483647) (hi : prod (pre ++ post) ≤ 2147483647)
    (hbb : prod (pre ++ post) * c.size ≤ 4294967296) (hbc : C * c.size ≤ 4294967296)
    (hden : ∀ ch, ch < C → ∃ e t r, Converts E.fp c (.f64 eps) e ∧ OpResult E.fp c .add (vs.getD ch (.int 0)) e t ∧ ¬ Negative E.fp t ∧ RootOf E.fp c t r)
    (hn : ∀ cs, InRange T.dims cs → ∃ r, NormTo E.fp c eps (ss.getD (cs.getD (1 + pre.length) 0) (.int 0)) (bs.getD (cs.getD (1 + pre.length) 0) (.int 0))
      (ms.getD (cs.getD (1 + pre.length) 0) (.int 0)) (vs.getD (cs.getD (1 + pre.length) 0) (.int 0)) (elemAt T.dims xs cs) r) :
    ∃ zs : List Val, zs.length = prod T.dims ∧
      (∀ cs, InRange T.dims cs → NormTo E.fp c eps (ss.getD (cs.getD (1 + pre.length) 0) (.int 0)) (bs.getD (cs.getD (1 + pre.length) 0) (.int 0))
        (ms.getD (cs.getD (1 + pre.length) 0) (.int 0)) (vs.getD (cs.getD (1 + pre.length) 0) (.int 0)) (elemAt T.dims xs cs) (elemAt T.dims zs cs)) ∧
      AttemptsMalloc E (batchNorm R.h ((1 + pre.length : Nat) : Int) Rs.h Rb.h Rm.h Rv.h eps out) m ⟨c.dtype, T.device, T.dims, encAll c zs⟩ := by
  obtain ⟨zs, hzl, hz⟩ := exists_elems hn
  refine ⟨zs, hzl, hz, batchNorm_run (c := c) wf h hx.dtype hck hzl out fun Ro m1 P => ?_⟩
  have hq : Ro.p < m1.next := P.tensor.lt P.ext.wf (by simp [mem_foot])
  have hqf : m.next ≤ Ro.p := P.fresh _ (by simp [mem_foot])
  have nm : ∀ {R' : Foot} {T' : TV}, At m R' T' → Ro.p ∉ R'.list := fun a hh => by have := a.lt wf hh; omega
  have f := P.ext.toFrame
  have vs1 : Vec m1 Rs c [C] ss Sc := ⟨hs.frame wf f, es, gs, ds⟩
  have vb1 : Vec m1 Rb c [C] bs Bi := ⟨hb.frame wf f, eb, gb, db⟩
  have vm1 : Vec m1 Rm c [C] ms Me := ⟨hm.frame wf f, em, gm, dm⟩
  have vv1 : Vec m1 Rv c [C] vs Va := ⟨hv.frame wf f, ev, gv, dv⟩
  have ls := es.len; rw [gs] at ls; simp only [prod, Nat.mul_one] at ls
  have lb := eb.len; rw [gb] at lb; simp only [prod, Nat.mul_one] at lb
  have lm := em.len; rw [gm] at lm; simp only [prod, Nat.mul_one] at lm
  have lv := ev.len; rw [gv] at lv; simp only [prod, Nat.mul_one] at lv
  obtain ⟨e, -, -, he, -⟩ := hden 0 hC0
  rw [converts_iff] at he
  obtain ⟨dn, hdl, hdn⟩ := exists_mid (N := C) (P := fun j r => DenStep E.fp c e (vs.getD j (.int 0)) r) fun j hj => by
    obtain ⟨e', t, r, h1, h2, h3, h4⟩ := hden j hj
    rw [converts_iff, he] at h1; cases h1
    refine ⟨r, t, (opResult_iff (wt_getD ev.wt lv hj) (cCast_WT he)).1 h2, ?_, rootOf_iff.1 h4⟩
    rw [← isNeg_iff] at h3
    simpa using h3
  have hdw : ∀ j, j < C → (dn.getD j (.int 0)).WT c := fun j hj => by
    obtain ⟨t, -, -, hr⟩ := hdn j hj
    unfold sqrtF at hr
    exact cCast_WT hr
  have hz' : ∀ s ch k, s < d → ch < C → k < prod (pre ++ post) → StepTo E.fp c (ss.getD ch (.int 0)) (bs.getD ch (.int 0)) (ms.getD ch (.int 0))
      (dn.getD ch (.int 0)) (xs.getD (cellPos d pre C post s ch k) (.int 0)) (zs.getD (cellPos d pre C post s ch k) (.int 0)) := by
    intro s ch k h1 h2 h3
    have hr : InRange T.dims (cellIdx pre.length s ch (unlin (pre ++ post) k)) := by rw [hds]; exact cellIdx_inRange h1 h2 (unlin_inRange h3)
    have hw := elemAt_WT hx rfl hr
    have := hz _ hr
    have hg : (cellIdx pre.length s ch (unlin (pre ++ post) k)).getD (1 + pre.length) 0 = ch := by
      have hl := (unlin_inRange h3).length
      simp only [List.length_append] at hl
      have hlt : ((unlin (pre ++ post) k).take pre.length).length = pre.length := by rw [List.length_take]; omega
      rw [cellIdx, Nat.add_comm]
      simp [List.getD_eq_getElem?_getD, hlt]
    rw [hg, normTo_iff (wt_getD es.wt ls h2) (wt_getD eb.wt lb h2) (wt_getD em.wt lm h2) (wt_getD ev.wt lv h2) hw he (hdn ch h2)] at this
    rw [elemAt, elemAt, hds] at this
    exact this
  have hob : m1.blk Ro.p = some ⟨.own, .bytes (encOpt c (tab (prod T.dims) fun _ => none))⟩ := by
    rw [P.tensor.data]
    simp [encOpt_replicate, tab_none]
  by_cases hr3 : 3 ≤ T.dims.length
  · exact bnMain3_run P.ext.wf hq (h.frame wf f) (nm h) hx hdev hds hax hr3 hr5 hpos hd hC hi hbb hbc rfl vs1 vb1 vm1 vv1 P.tensor rfl rfl rfl hob he hdw hdn hz'
  · have hl : pre.length + post.length = 0 := by rw [hds] at hr3; simp at hr3; omega
    have hp : pre = [] := List.length_eq_zero_iff.1 (by omega)
    have hp' : post = [] := List.length_eq_zero_iff.1 (by omega)
    subst hp hp'
    have hds' : T.dims = [d, C] := hds
    have hN : prod T.dims = d * C := by rw [hds']; simp [prod]
    rw [hN] at hob ⊢
    refine bnMain2_run (dn := dn) P.ext.wf hq (h.frame wf f) (nm h) hx hdev hds' hC0 hd hC rfl vs1 vb1 vm1 vv1 (nm hs) (nm hb) (nm hm) P.tensor rfl hob he hdl
      (wt_of_getD hdl hdw) hdn fun s j h1 h2 => ?_
    have := hz' s j 0 h1 h2 (by simp [prod])
    have hpos : cellPos d [] C [] s j 0 = s * C + j := by simp [cellPos, cellIdx, lin, unlin, prod]
    rwa [hpos] at this

/-- C44, for inputs without empty dims other than the number of samples and within the limits `BnSmall`; missing are larger
inputs, for which offsets wrap around at 4 GiB, and empty inputs, for which the claim is false (`C44_empty_violated`).
Rank 2 to 5, axis 1 or the last one, and all other requirements of batch normalisation: the result has the shape of the
input, and each of its elements is `scale * ((x - mean) / sqrt(var + eps)) + bias` with the parameters of the element's channel. -/
theorem C44_batchNorm_partial (wf : m.WF) (h : At m R T) (hs : At m Rs Sc) (hb : At m Rb Bi) (hm : At m Rm Me) (hv : At m Rv Va)
    (hx : Elems T c xs) (es : Elems Sc c ss) (eb : Elems Bi c bs) (em : Elems Me c ms) (ev : Elems Va c vs)
    (hdev : T.device.type = 0) (ds : Sc.device.type = 0) (db : Bi.device.type = 0) (dm : Me.device.type = 0) (dv : Va.device.type = 0)
    (axis : Nat) (eps : BitVec 64) (out : Ptr) (hreq : ∀ p ∈ bnRequires E.fp T axis Sc Bi Me Va eps, p.1)
    (hpos : ∀ x ∈ T.dims.drop 1, 0 < x) (hsm : BnSmall T axis c)
    (hden : ∀ ch, ch < T.dims.getD axis 0 → ∃ e t r, Converts E.fp c (.f64 eps) e ∧ OpResult E.fp c .add (vs.getD ch (.int 0)) e t ∧
      ¬ Negative E.fp t ∧ RootOf E.fp c t r)
    (hn : ∀ cs, InRange T.dims cs → ∃ r, NormTo E.fp c eps (ss.getD (cs.getD axis 0) (.int 0)) (bs.getD (cs.getD axis 0) (.int 0))
      (ms.getD (cs.getD axis 0) (.int 0)) (vs.getD (cs.getD axis 0) (.int 0)) (elemAt T.dims xs cs) r) :
    ∃ zs : List Val, zs.length = prod T.dims ∧
      (∀ cs, InRange T.dims cs → NormTo E.fp c eps (ss.getD (cs.getD axis 0) (.int 0)) (bs.getD (cs.getD axis 0) (.int 0))
        (ms.getD (cs.getD axis 0) (.int 0)) (vs.getD (cs.getD axis 0) (.int 0)) (elemAt T.dims xs cs) (elemAt T.dims zs cs)) ∧
      AttemptsMalloc E (batchNorm R.h axis Rs.h Rb.h Rm.h Rv.h eps out) m ⟨c.dtype, T.device, T.dims, encAll c zs⟩ := by
  obtain ⟨st, hck, hc⟩ := bnCheck_run (E := E) (axis := axis) (eps := eps) h hs hb hm hv
  rcases hc with hc | ⟨rfl, -⟩
  · exact absurd hreq hc.not_all
  simp only [bnRequires, List.forall_mem_cons] at hreq
  obtain ⟨⟨hr2, hr5⟩, hax, -, ⟨gs, gb⟩, -, ⟨gm, gv⟩, -⟩ := hreq
  simp only [Int.toNat_natCast] at gs gb gm gv
  obtain ⟨d, ds', e0⟩ : ∃ d ds', T.dims = d :: ds' := by
    cases hT : T.dims with
    | nil => rw [hT] at hr2; simp at hr2
    | cons d l => exact ⟨d, l, rfl⟩
  obtain ⟨pre, C, post, hds, hp, rfl⟩ : ∃ pre C post, T.dims = d :: (pre ++ C :: post) ∧ (pre = [] ∨ post = []) ∧ axis = 1 + pre.length := by
    rw [e0] at hr2 hax ⊢
    simp only [List.length_cons] at hr2 hax
    rcases hax with hax | hax
    · cases ds' with
      | nil => simp at hr2
      | cons C l => exact ⟨[], C, l, rfl, .inl rfl, by simp; omega⟩
    · have hne : ds' ≠ [] := by rintro rfl; simp at hr2
      refine ⟨ds'.dropLast, ds'.getLast hne, [], by rw [List.dropLast_concat_getLast hne], .inr rfl, ?_⟩
      rw [List.length_dropLast]; omega
  have hC : T.dims.getD (1 + pre.length) 0 = C := by
    rw [hds, Nat.add_comm]; simp [List.getD_eq_getElem?_getD]
  have her : (T.dims.eraseIdx (1 + pre.length)).drop 1 = pre ++ post := by
    rw [hds, Nat.add_comm, List.eraseIdx_cons_succ, List.eraseIdx_append_of_length_le (Nat.le_refl _)]
    simp
  rw [hC] at gs gb gm gv hden
  obtain ⟨k1, k2, k3, k4, k5⟩ := hsm
  rw [her] at k3 k5
  rw [hC] at k2 k4
  rw [hds] at hpos k1
  refine batchNorm_main wf h hs hb hm hv eps out hx es eb em ev hdev ds db dm dv hds hp hck gs gb gm gv hr5 (hpos C (by simp))
    (fun x hx => hpos x ?_) k1 k2 k3 k5 k4 hden hn
  simp only [List.drop_succ_cons, List.drop_zero, List.mem_append, List.mem_cons] at hx ⊢
  rcases hx with hx | hx
  · exact .inl hx
  · exact .inr (.inr hx)

/-- C44. The value is determined by the arguments. -/
theorem C44_unique {fp : FloatOps} {eps : BitVec 64} {sc bi me va x r r' : Val} (hs : sc.WT c) (hb : bi.WT c) (hm : me.WT c) (hv : va.WT c)
    (hx : x.WT c) (h : NormTo fp c eps sc bi me va x r) (h' : NormTo fp c eps sc bi me va x r') : r = r' := by
  obtain ⟨e, t, d, -, -, -, h1, h2, h3, h4, -⟩ := id h
  have he := converts_iff.1 h1
  have hd : DenStep fp c e va d := ⟨t, (opResult_iff hv (cCast_WT he)).1 h2, by rw [← isNeg_iff] at h3; simpa using h3, rootOf_iff.1 h4⟩
  rw [normTo_iff hs hb hm hv hx he hd] at h h'
  obtain ⟨a, b, p, g1, g2, g3, g4⟩ := h
  obtain ⟨a', b', p', g1', g2', g3', g4'⟩ := h'
  rw [g1] at g1'; cases g1'
  rw [g2] at g2'; cases g2'
  rw [g3] at g3'; cases g3'
  rw [g4] at g4'; cases g4'
  rfl

/-- Numbers of type `float`: the formula has a value unless a variance plus epsilon is negative. -/
theorem normTo_f32 {fp : FloatOps} {eps : BitVec 64} {a b u v x : BitVec 32} (h : ¬ Negative fp (.f32 (fp.add32 v (fp.narrow eps)))) :
    ∃ r, NormTo fp .f32 eps (.f32 a) (.f32 b) (.f32 u) (.f32 v) (.f32 x) r :=
  ⟨_, _, _, _, _, _, _, rfl, rfl, h, rootOf_iff.2 rfl, rfl, rfl, rfl, rfl⟩

theorem den_f32 {fp : FloatOps} {eps : BitVec 64} {v : BitVec 32} (h : ¬ Negative fp (.f32 (fp.add32 v (fp.narrow eps)))) :
    ∃ e t r, Converts fp .f32 (.f64 eps) e ∧ OpResult fp .f32 .add (.f32 v) e t ∧ ¬ Negative fp t ∧ RootOf fp .f32 t r :=
  ⟨_, _, _, rfl, rfl, h, rootOf_iff.2 rfl⟩

/-! ## C45 -/

/-- C45. If a requirement on the arguments does not hold, the call returns the status that belongs to the first such
requirement, and neither memory nor `*output` changes. -/
theorem C45_refused (h : At m R T) (hs : At m Rs Sc) (hb : At m Rb Bi) (hm : At m Rm Me) (hv : At m Rv Va) (axis : Int) (eps : BitVec 64)
    (out : Ptr) {st : Status} (hf : FirstFails (bnRequires E.fp T axis Sc Bi Me Va eps) st) :
    batchNorm R.h axis Rs.h Rb.h Rm.h Rv.h eps out E m = .ok (st, out) m := by
  obtain ⟨st', e, hc⟩ := bnCheck_run (E := E) (axis := axis) (eps := eps) h hs hb hm hv
  rcases hc with hc | ⟨_, ha⟩
  · cases hf.unique hc
    have hne : st ≠ .success := by
      clear e hc
      simp only [bnRequires, FirstFails] at hf
      rintro rfl
      simp at hf
    unfold batchNorm
    msimp [e, hne]
  · exact absurd ha hf.not_all

/-- Two samples of two channels, and a tensor of two numbers. -/
def exNx : TV := tvOf .f32 [2, 2] [.f32 70, .f32 2, .f32 38, .f32 4]
def exNp : TV := tvOf .f32 [2] [.f32 6, .f32 14]

def exNm : Mem := (Mem.empty.addT exNx).addT exNp

theorem exNm_wf : exNm.WF := Mem.addT_wf (Mem.addT_wf Mem.empty_wf _) _

theorem exNx_at : At exNm Mem.empty.footT exNx :=
  addT_old (Mem.addT_wf Mem.empty_wf _) (tvOf_at _ (by simp) rfl ⟨by decide, by decide⟩) _

theorem exNp_at : At exNm (Mem.empty.addT exNx).footT exNp := tvOf_at _ (by simp) rfl ⟨by decide, by decide⟩

/-- Axis 0 is refused although epsilon is negative as well. -/
example : batchNorm Mem.empty.footT.h 0 (Mem.empty.addT exNx).footT.h (Mem.empty.addT exNx).footT.h (Mem.empty.addT exNx).footT.h
    (Mem.empty.addT exNx).footT.h (-1) .indet okEnv exNm = .ok (.invalidArgument, .indet) exNm :=
  C45_refused exNx_at exNp_at exNp_at exNp_at exNp_at 0 (-1) .indet (.inr ⟨by decide, .inl ⟨by decide, rfl⟩⟩)

/-- The last check: a negative epsilon. -/
example : batchNorm Mem.empty.footT.h 1 (Mem.empty.addT exNx).footT.h (Mem.empty.addT exNx).footT.h (Mem.empty.addT exNx).footT.h
    (Mem.empty.addT exNx).footT.h (-1) .indet okEnv exNm = .ok (.invalidArgument, .indet) exNm :=
  C45_refused exNx_at exNp_at exNp_at exNp_at exNp_at 1 (-1) .indet
    (.inr ⟨by decide, .inr ⟨by decide, .inr ⟨by decide, .inr ⟨by decide, .inr ⟨by decide, .inr ⟨by decide, .inl ⟨not_not.2 rfl, rfl⟩⟩⟩⟩⟩⟩⟩)

/-! ## Examples for C44 -/

theorem wt_f32 {v : Val} (h : v.WT .f32) : ∃ b, v = .f32 b := by
  cases v <;> simp [Val.WT] at h
  exact ⟨_, rfl⟩

/-- Two samples of two channels, rank 2. -/
example : ∃ zs : List Val, zs.length = 4 ∧ AttemptsMalloc okEnv (batchNorm Mem.empty.footT.h 1 (Mem.empty.addT exNx).footT.h (Mem.empty.addT exNx).footT.h
    (Mem.empty.addT exNx).footT.h (Mem.empty.addT exNx).footT.h 1 .indet) exNm ⟨Code.f32.dtype, exNx.device, [2, 2], encAll .f32 zs⟩ := by
  have ex : Elems exNx .f32 _ := tvOf_elems (by decide) rfl
  have ep : Elems exNp .f32 _ := tvOf_elems (by decide) rfl
  obtain ⟨zs, h1, -, h2⟩ := C44_batchNorm_partial (E := okEnv) exNm_wf exNx_at exNp_at exNp_at exNp_at exNp_at ex ep ep ep ep rfl rfl rfl rfl rfl 1 1 .indet
    (by
      simp only [bnRequires, List.forall_mem_cons]
      exact ⟨by decide, by decide, by decide, by decide, by decide, by decide, by simp [Negative, okEnv, toyFp], by simp⟩)
    (by decide) ⟨by decide, by decide, by decide, by decide, by decide⟩
    (fun ch hc => by
      match ch, hc with
      | 0, _ => exact den_f32 (by simp [Negative, okEnv, toyFp])
      | 1, _ => exact den_f32 (by simp [Negative, okEnv, toyFp]))
    (fun cs hc => by
      obtain ⟨x, hx⟩ := wt_f32 (elemAt_WT ex rfl hc)
      rw [hx]
      match cs, hc with
      | [_, 0], _ => exact normTo_f32 (by simp [Negative, okEnv, toyFp])
      | [_, 1], _ => exact normTo_f32 (by simp [Negative, okEnv, toyFp])
      | [_, n + 2], hc => exact absurd hc.2.1 (by omega))
  exact ⟨zs, h1, h2⟩

/-- Rank 3, one sample with two channels of three numbers, and with the channels last. -/
def exNy : TV := tvOf .f32 [1, 2, 3] [.f32 70, .f32 2, .f32 38, .f32 4, .f32 5, .f32 6]
def exNz : TV := tvOf .f32 [1, 3, 2] [.f32 70, .f32 2, .f32 38, .f32 4, .f32 5, .f32 6]

example : ∃ zs : List Val, zs.length = 6 ∧ AttemptsMalloc okEnv (batchNorm Mem.empty.footT.h 1 (Mem.empty.addT exNy).footT.h (Mem.empty.addT exNy).footT.h
    (Mem.empty.addT exNy).footT.h (Mem.empty.addT exNy).footT.h 1 .indet) ((Mem.empty.addT exNy).addT exNp)
    ⟨Code.f32.dtype, exNy.device, [1, 2, 3], encAll .f32 zs⟩ := by
  have ex : Elems exNy .f32 _ := tvOf_elems (by decide) rfl
  have ep : Elems exNp .f32 _ := tvOf_elems (by decide) rfl
  have hx : At ((Mem.empty.addT exNy).addT exNp) Mem.empty.footT exNy :=
    addT_old (Mem.addT_wf Mem.empty_wf _) (tvOf_at _ (by simp) rfl ⟨by decide, by decide⟩) _
  have hp : At ((Mem.empty.addT exNy).addT exNp) (Mem.empty.addT exNy).footT exNp := tvOf_at _ (by simp) rfl ⟨by decide, by decide⟩
  obtain ⟨zs, h1, -, h2⟩ := C44_batchNorm_partial (E := okEnv) (Mem.addT_wf (Mem.addT_wf Mem.empty_wf _) _) hx hp hp hp hp ex ep ep ep ep rfl rfl rfl rfl rfl 1 1 .indet
    (by
      simp only [bnRequires, List.forall_mem_cons]
      exact ⟨by decide, by decide, by decide, by decide, by decide, by decide, by simp [Negative, okEnv, toyFp], by simp⟩)
    (by decide) ⟨by decide, by decide, by decide, by decide, by decide⟩
    (fun ch hc => by
      match ch, hc with
      | 0, _ => exact den_f32 (by simp [Negative, okEnv, toyFp])
      | 1, _ => exact den_f32 (by simp [Negative, okEnv, toyFp]))
    (fun cs hc => by
      obtain ⟨x, hx⟩ := wt_f32 (elemAt_WT ex rfl hc)
      rw [hx]
      match cs, hc with
      | [_, 0, _], _ => exact normTo_f32 (by simp [Negative, okEnv, toyFp])
      | [_, 1, _], _ => exact normTo_f32 (by simp [Negative, okEnv, toyFp])
      | [_, n + 2, _], hc => exact absurd hc.2.1 (by omega))
  exact ⟨zs, h1, h2⟩

example : ∃ zs : List Val, zs.length = 6 ∧ AttemptsMalloc okEnv (batchNorm Mem.empty.footT.h 2 (Mem.empty.addT exNz).footT.h (Mem.empty.addT exNz).footT.h
    (Mem.empty.addT exNz).footT.h (Mem.empty.addT exNz).footT.h 1 .indet) ((Mem.empty.addT exNz).addT exNp)
    ⟨Code.f32.dtype, exNz.device, [1, 3, 2], encAll .f32 zs⟩ := by
  have ex : Elems exNz .f32 _ := tvOf_elems (by decide) rfl
  have ep : Elems exNp .f32 _ := tvOf_elems (by decide) rfl
  have hx : At ((Mem.empty.addT exNz).addT exNp) Mem.empty.footT exNz :=
    addT_old (Mem.addT_wf Mem.empty_wf _) (tvOf_at _ (by simp) rfl ⟨by decide, by decide⟩) _
  have hp : At ((Mem.empty.addT exNz).addT exNp) (Mem.empty.addT exNz).footT exNp := tvOf_at _ (by simp) rfl ⟨by decide, by decide⟩
  obtain ⟨zs, h1, -, h2⟩ := C44_batchNorm_partial (E := okEnv) (Mem.addT_wf (Mem.addT_wf Mem.empty_wf _) _) hx hp hp hp hp ex ep ep ep ep rfl rfl rfl rfl rfl 2 1 .indet
    (by
      simp only [bnRequires, List.forall_mem_cons]
      exact ⟨by decide, by decide, by decide, by decide, by decide, by decide, by simp [Negative, okEnv, toyFp], by simp⟩)
    (by decide) ⟨by decide, by decide, by decide, by decide, by decide⟩
    (fun ch hc => by
      match ch, hc with
      | 0, _ => exact den_f32 (by simp [Negative, okEnv, toyFp])
      | 1, _ => exact den_f32 (by simp [Negative, okEnv, toyFp]))
    (fun cs hc => by
      obtain ⟨x, hx⟩ := wt_f32 (elemAt_WT ex rfl hc)
      rw [hx]
      match cs, hc with
      | [_, _, 0], _ => exact normTo_f32 (by simp [Negative, okEnv, toyFp])
      | [_, _, 1], _ => exact normTo_f32 (by simp [Negative, okEnv, toyFp])
      | [_, _, n + 2], hc => exact absurd hc.2.2.1 (by omega))
  exact ⟨zs, h1, h2⟩

/-! ## Limits -/

/-- C44, violated: a tensor of one sample and no channels meets all requirements and has no elements, but the call reports
`STATUS_INVALID_ARGUMENT`, after having set the output. -/
theorem C44_empty_violated :
    ∃ (m : Mem) (R Rp : Foot) (T P : TV), m.WF ∧ At m R T ∧ Elems T .f32 [] ∧ At m Rp P ∧ Elems P .f32 [] ∧ T.dims = [1, 0] ∧
      (∀ r ∈ bnRequires okEnv.fp T 1 P P P P 1, r.1) ∧ okEnv.NoFail ∧ okEnv.MallocOK ∧
      (batchNorm R.h 1 Rp.h Rp.h Rp.h Rp.h 1 .indet okEnv m).gives .invalidArgument = true :=
  ⟨(Mem.empty.addT (tvOf .f32 [1, 0] [])).addT (tvOf .f32 [0] []), Mem.empty.footT, (Mem.empty.addT (tvOf .f32 [1, 0] [])).footT,
    tvOf .f32 [1, 0] [], tvOf .f32 [0] [], Mem.addT_wf (Mem.addT_wf Mem.empty_wf _) _,
    addT_old (Mem.addT_wf Mem.empty_wf _) (tvOf_at _ (by simp) rfl ⟨by decide, by decide⟩) _, tvOf_elems (by decide) rfl,
    tvOf_at _ (by simp) rfl ⟨by decide, by decide⟩, tvOf_elems (by decide) rfl, rfl, (by
      simp only [bnRequires, List.forall_mem_cons]
      exact ⟨by decide, by decide, by decide, by decide, by decide, by decide, by simp [Negative, okEnv, toyFp], by simp⟩),
    okEnv_noFail, fun _ _ => rfl, by decide +kernel⟩

end Aitisa
