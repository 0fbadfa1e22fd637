import Verif.Proof.BatchNorm2

/-! # Batch normalisation: the operator -/

namespace Aitisa

variable {E : Env} {m m0 m1 mi mB : Mem} {R R' : Foot} {T T' : TV} {c : Code} {q N : Nat} {xs ys zs : List Val} {L : List Item} {α β : Type}

/-- Outcomes of the part that fills the output. -/
def Fills (E : Env) (m1 : Mem) (q : Nat) (c : Code) (N : Nat) (W : Nat → Val) (r : Res Status) : Prop :=
  (∃ m' G, r = .ok .success m' ∧ Pool (m1.arr q c N G) m' [] ∧ ∀ i, i < N → G i = some (W i)) ∨
  ((¬ E.NoFail ∨ ¬ E.MallocOK) ∧ ((∃ m', r = .ok .allocFailed m' ∧ Lost m1 m' q) ∨ r = .ub .nullDeref))

theorem Lost.dropNew {K : List Nat} (l : Lost m0 m1 q) (hK : ∀ b ∈ K, m0.next ≤ b) : Lost m0 (m1.drop K) q where
  next := l.next
  same b hb hbq := by
    rw [Mem.drop_blk, if_neg (fun h => by have := hK b h; omega), l.same b hb hbq]
  wf := l.wf.drop K

theorem bnMain2_run {d C : Nat} {ss bs ms vs dn : List Val} {Rs Rb Rm Rv Ro : Foot} {Ts Tb Tm Tv To : TV} {W : Nat → Val} {ev : Val} {eps : BitVec 64}
    {axis : Int} (wf : m1.WF) (hq : q < m1.next) (h : At m1 R T) (hR : q ∉ R.list) (he : Elems T c xs) (hdev : T.device.type = 0)
    (hds : T.dims = [d, C]) (hC : 0 < C) (hd : d ≤ 2147483647) (hi : C ≤ 2147483647) (hN : N = d * C)
    (vs' : Vec m1 Rs c [C] ss Ts) (vb : Vec m1 Rb c [C] bs Tb) (vm : Vec m1 Rm c [C] ms Tm) (vv : Vec m1 Rv c [C] vs Tv)
    (ns : q ∉ Rs.list) (nb : q ∉ Rb.list) (nm : q ∉ Rm.list)
    (ho : At m1 Ro To) (hoq : Ro.p = q) (hob : m1.blk q = some ⟨.own, .bytes (encOpt c (tab N fun _ => none))⟩)
    (hev : cCast E.fp c (.f64 eps) = .ok ev) (hl : dn.length = C) (hw : ∀ x ∈ dn, x.WT c)
    (hdn : ∀ j, j < C → DenStep E.fp c ev (vs.getD j (.int 0)) (dn.getD j (.int 0)))
    (hz : ∀ s j, s < d → j < C → StepTo E.fp c (ss.getD j (.int 0)) (bs.getD j (.int 0)) (ms.getD j (.int 0)) (dn.getD j (.int 0))
      (xs.getD (s * C + j) (.int 0)) (W (s * C + j))) :
    Fills E m1 q c N W (bnMain R.h axis Rs.h Rb.h Rm.h Rv.h eps Ro.h E m1) := by
  have hnd : tNdim R.h E m1 = .ok 2 m1 := by rw [h.tNdim, hds]; rfl
  have hsC : ShapeOK [C] c.size := by
    have := vs'.ok.shape
    rwa [vs'.el.dtype, vs'.dims] at this
  have ee : ∀ {r}, bnDenom R.h Rv.h eps E m1 = r → bnMain R.h axis Rs.h Rb.h Rm.h Rv.h eps Ro.h E m1 = (match r with
      | .ok (.inr st) m' => .ok st m'
      | .ok (.inl d) m' => (bnPlain R.h Rs.h Rb.h Rm.h d Ro.h >>= fun r => destroy d >>= fun _ => pure (endStatus r)) E m'
      | .ub u => .ub u
      | .abort => .abort
      | .fuel => .fuel) := by
    intro r hr
    unfold bnMain
    msimp [hnd]
    rw [hr]
    rcases r with ⟨a | a, m'⟩ | _ | _ | _ <;> first | rfl | skip
  rcases bnDenom_run (E := E) (m0 := m1) (q := q) wf ⟨Nat.le_refl _, fun _ _ _ => rfl, wf⟩ h he.dtype hdev vv hi hsC hev hl hdn with
    ⟨d', m2, e, Rd, rfl, P⟩ | ⟨nf, ⟨m', e, l'⟩ | e⟩
  · have hq2 : q < m2.next := Nat.lt_of_lt_of_le hq P.ext.next
    have hqd : q ∉ Rd.list := fun hh => by have := P.fresh q (by simpa [Item.blocks] using hh); omega
    have vd := Vec.mk' (P.at (R := Rd) (List.mem_singleton.2 rfl)) hw (by simp [prod, hl]) vv.dev
    rcases bnPlain_run (E := E) (W := W) P.ext.wf hq2 (h.frame wf P.ext.toFrame) hR he hdev hds hC hd hi hN (vs'.old wf P) (vb.old wf P) (vm.old wf P) vd
      ns nb nm hqd (ho.frame wf P.ext.toFrame) hoq (by rw [P.ext.same q hq, hob]) hz with ⟨u, m3, e3, G, P3, hG⟩ | ⟨nf, ⟨m3, e3, l3⟩ | e3⟩
    · left
      have P4 := (P.put (c := c) (N := N) hq G).clean P3
      obtain ⟨x, P5⟩ := P4.destroy (E := E)
      refine ⟨_, G, (ee e).trans ?_, P5, hG⟩
      msimp [e3, x, endStatus]
    · right
      refine ⟨nf, .inl ⟨m3.drop Rd.list, ?_, ?_⟩⟩
      · have ad : At m3 Rd _ := l3.at P.ext.wf vd.ok hqd
        have x := destroy_run (E := E) ad
        refine (ee e).trans ?_
        msimp [e3, x, endStatus]
      · refine ((P.lost q).trans l3).dropNew fun b hb => P.fresh b (by simpa [Item.blocks] using hb)
    · right
      refine ⟨nf, .inr ((ee e).trans ?_)⟩
      msimp [e3]
  · exact .inr ⟨nf, .inl ⟨m', ee e, l'⟩⟩
  · exact .inr ⟨nf, .inr (ee e)⟩

/-- The operator, from the checks and the part that fills the output. -/
theorem batchNorm_run {Rs Rb Rm Rv : Foot} {axis : Int} {eps : BitVec 64} (wf : m.WF) (h : At m R T) (hdt : T.dtype = c.dtype)
    (hck : bnCheck R.h axis Rs.h Rb.h Rm.h Rv.h eps E m = .ok .success m) (hl : zs.length = prod T.dims) (out : Ptr)
    (hF : ∀ (Ro : Foot) m1, Produces m m1 Ro ⟨c.dtype, T.device, T.dims, List.replicate (prod T.dims * c.size) none⟩ →
      Fills E m1 Ro.p c (prod T.dims) (fun i => zs.getD i (.int 0)) (bnMain R.h axis Rs.h Rb.h Rm.h Rv.h eps Ro.h E m1)) :
    AttemptsMalloc E (batchNorm R.h axis Rs.h Rb.h Rm.h Rv.h eps out) m ⟨c.dtype, T.device, T.dims, encAll c zs⟩ := by
  have hs := h.shape
  rw [hdt] at hs
  rcases create_run (E := E) wf c.dtype T.device hs 0 .indet with ⟨Ro, m1, e, P⟩ | ⟨m', e, f, w, nf⟩
  · have hcr : bnCreate R.h out E m = .ok (.success, Ro.h) m1 := by
      unfold bnCreate
      msimp [h.tDimsArr, h.tNdim, h.tDtype, h.tDevice, hdt, e]
    have hqf : m.next ≤ Ro.p := P.fresh _ (by simp [mem_foot])
    have hfr : ∀ {m'}, Lost m1 m' Ro.p → Frame m m' := fun l =>
      ⟨Nat.le_trans P.ext.next l.next, fun b hb => by rw [l.same b (by have := P.ext.next; omega) (by omega), P.ext.same b hb]⟩
    rcases hF Ro m1 P with ⟨m2, G, e2, P2, hG⟩ | ⟨nf, ⟨m2, e2, l⟩ | e2⟩
    · left
      refine ⟨Ro, m2, ?_, ?_⟩
      · unfold batchNorm
        msimp [hck, hcr, e2]
      · refine Pool.produces (Pool.clean ?_ P2)
        have harr : m1.arr Ro.p c (prod T.dims) G = m1.set Ro.p (some ⟨.own, .bytes (encAll c zs)⟩) := by
          rw [← full_arr m1 Ro.p c hl (.int 0)]
          exact Mem.arr_congr _ _ _ hG
        rw [harr]
        exact P.pool.setData (by simp [encAll_length, hl]; rfl)
    · right
      refine ⟨nf, .inl ⟨Ro.h, m2, ?_, hfr l, l.wf⟩⟩
      unfold batchNorm
      msimp [hck, hcr, e2]
    · right
      refine ⟨nf, .inr ?_⟩
      unfold batchNorm
      msimp [hck, hcr, e2]
  · right
    refine ⟨.inl nf, .inl ⟨out, m', ?_, f, w⟩⟩
    have hcr : bnCreate R.h out E m = .ok (.allocFailed, out) m' := by
      unfold bnCreate
      msimp [h.tDimsArr, h.tNdim, h.tDtype, h.tDevice, hdt, e]
    unfold batchNorm
    msimp [hck, hcr]

end Aitisa
