import Verif.Proof.BatchNorm5

/-! # Batch normalisation: rank 3 and more, the tensors of the channels -/

namespace Aitisa

variable {E : Env} {m m0 m1 mi mB : Mem} {R R' : Foot} {T T' : TV} {c : Code} {q N : Nat} {xs ys zs : List Val} {L : List Item}
  {G : Nat → Option Val} {α : Type} {Q : α → Mem → Prop} {dev : Device} {D : List Nat}

/-- A tensor with `v` in every element. -/
def constTV (c : Code) (dev : Device) (D : List Nat) (v : Val) : TV := ⟨c.dtype, dev, D, encAll c (List.replicate (prod D) v)⟩

/-- A tensor with uninitialised elements. -/
def blankTV (c : Code) (dev : Device) (D : List Nat) : TV := ⟨c.dtype, dev, D, List.replicate (prod D * c.size) none⟩

theorem const_vec {v : Val} (h : At m R (constTV c dev D v)) (hv : v.WT c) (hd : dev.type = 0) :
    Vec m R c D (List.replicate (prod D) v) (constTV c dev D v) :=
  Vec.mk' h (fun x hx => by rw [List.eq_of_mem_replicate hx]; exact hv) (by simp) hd

theorem Pool.setMid {A B : List Item} (P : Pool m m1 (A ++ .tensor R T :: B)) {bs : List Byte} (hl : bs.length = T.bytes.length) :
    Pool m (m1.set R.p (some ⟨.own, .bytes bs⟩)) (A ++ .tensor R { T with bytes := bs } :: B) :=
  ((P.perm List.perm_middle).setData hl).perm List.perm_middle.symm

theorem Pool.notMem {x : Item} (P : Pool m m1 (x :: L)) {b : Nat} (hb : b ∈ x.blocks) : b ∉ blocksOf L := by
  have := P.nodup
  rw [blocksOf_cons, List.nodup_append] at this
  exact fun h => this.2.2 b hb b h rfl

/-! ### Copying a parameter into all elements -/

theorem bnSpread_run {A B : List Item} {C ch : Nat} {Rs : Foot} {Ts : TV} (P : Pool m m1 (A ++ .tensor R (blankTV c dev D) :: B)) (wf : m.WF)
    (h : Vec m Rs c [C] xs Ts) (hc : ch < C) (hi : prod D ≤ 2147483647) (hb : prod D * c.size ≤ 4294967296) (hbc : C * c.size ≤ 4294967296) :
    ∃ m2, bnSpread Rs.h R.h ch (prod D : Nat) c.size E m1 = .ok (.inl ()) m2 ∧
      Pool m m2 (A ++ .tensor R (constTV c dev D (xs.getD ch (.int 0))) :: B) := by
  have hR : At m1 R (blankTV c dev D) := P.at (by simp)
  have hs := P.old wf h.ok
  have hfr : m.next ≤ R.p := P.fresh _ (by simp [Item.blocks, mem_foot])
  have hne : R.p ∉ Rs.list := fun hh => by have := h.ok.lt wf hh; omega
  have hbl : (m1.arr R.p c (prod D) fun _ => none) = m1 := blank_arr hR.data
  have hl := h.el.len
  rw [h.dims] at hl
  have hl : xs.length = C := by simpa [prod] using hl
  have hsz : 1 ≤ c.size := by cases c <;> decide
  have hchs : (ch + 1) * c.size ≤ C * c.size := Nat.mul_le_mul_right _ hc
  rw [Nat.succ_mul] at hchs
  refine ⟨m1.arr R.p c (prod D) fun i => some ((List.replicate (prod D) (xs.getD ch (.int 0))).getD i (.int 0)), ?_, ?_⟩
  · have := loopE_fn (E := E) (ρ := Status) (fun i (_ : Unit) => (do
        memcpyTo (.blk R.p) (toU32 ((i : Int) * c.size)) (.blk Rs.p) (toU32 ((ch : Int) * c.size)) c.size
        return .inl () : M (Unit ⊕ Status)))
      (fun i => m1.arr R.p c (prod D) fun j => if j < i then some (xs.getD ch (.int 0)) else none) (prod D) (by
        intro i hip
        have his : (i + 1) * c.size ≤ prod D * c.size := Nat.mul_le_mul_right _ hip
        rw [Nat.succ_mul] at his
        have u1 : toU32 ((i : Int) * c.size) = ((i * c.size : Nat) : Int) := by
          rw [← Int.natCast_mul]; unfold toU32; omega
        have u2 : toU32 ((ch : Int) * c.size) = ((ch * c.size : Nat) : Int) := by
          rw [← Int.natCast_mul]; unfold toU32; omega
        have e5 := memcpyTo_run (E := E) (m := m1.arr R.p c (prod D) fun j => if j < i then some (xs.getD ch (.int 0)) else none) (q := R.p) (c := c) (i := i) (k := ch)
          (N := prod D) (xs := xs) (p := Rs.p) (G := fun j => if j < i then some (xs.getD ch (.int 0)) else none) (w := xs.getD ch (.int 0))
          (by
            have := (hs.set_ne hne (some ⟨.own, .bytes (encOpt c (tab (prod D) fun j => if j < i then some (xs.getD ch (.int 0)) else none))⟩)).data
            rwa [h.el.bytes] at this)
          (by simp [Mem.arr]) hip (by simp [List.getD_eq_getElem?_getD, hl, hc])
        rw [Mem.arr_arr] at e5
        rw [u1, u2]
        msimp [e5]
        congr 1
        refine Mem.arr_congr _ _ _ fun j hj => ?_
        unfold upd
        by_cases hji : j = i
        · subst hji; simp
        · simp only [hji, if_false]
          by_cases hlt : j < i
          · rw [if_pos hlt, if_pos (by omega)]
          · rw [if_neg hlt, if_neg (by omega)])
    simp only [Nat.not_lt_zero, if_false] at this
    rw [hbl] at this
    unfold bnSpread forU32E
    msimp [hR.tData, hs.tData]
    rw [if_pos (by omega), Int.toNat_natCast, this]
    congr 1
    refine Mem.arr_congr _ _ _ fun j hj => ?_
    rw [if_pos hj, getD_replicate hj]
  · rw [full_arr _ _ _ (by simp)]
    exact P.setMid (by simp [encAll_length, blankTV])

/-! ### One channel -/

theorem mem_four {x a b c d : Item} (h : x ∈ L) : x ∈ a :: b :: c :: d :: L := by simp [h]
theorem perm_five {a b c d e : Item} : (d :: e :: b :: a :: c :: L).Perm (a :: b :: c :: d :: e :: L) := by
  have h : ([d, e] ++ [b, a, c]).Perm ([b, a, c] ++ [d, e]) := List.perm_append_comm
  have := (h.append_right L).trans (List.Perm.swap a b (c :: d :: e :: L))
  simpa using this
theorem mem_six {x a b c d e f : Item} (h : x ∈ L) : x ∈ a :: b :: c :: d :: e :: f :: L := by simp [h]

/-- A new tensor whose handle goes into a pointer array. -/
theorem Runs.new {p : Ptr} {K : List Nat} {C ch : Nat} {k : Ptr → M (α ⊕ Status)} (P : Pool m m1 L) (l : Lost m0 m q) (hs : ShapeOK D c.size)
    (hp : .raw p K (8 * C) ∈ L) (hn : p ≠ .null) (hc : ch < C)
    (hk : ∀ (R : Foot) m2, Pool m m2 (.tensor R (blankTV c dev D) :: L) → Runs E m0 q (k R.h E m2) Q) :
    Runs E m0 q (bnNew c.dtype dev (dimsCells D) D.length p ch k E m1) Q := by
  unfold bnNew
  refine Runs.create (create_run P.ext.wf c.dtype dev hs 0 .indet) (l.frame P.ext.toFrame P.ext.wf) fun R m2 P2 => ?_
  have P3 := P.produce P2
  have t := (P3.temp (p := p) (K := K) (n := 8 * C) (by simp [hp])).touch (E := E) hn (lo := 8 * ch) (hi := 8 * ch + 8) (by omega) (by omega)
  refine (hk R m2 P3).of_eq ?_
  msimp [t]

/-- The tensors of a channel, with their values. -/
structure ChRec where
  Rs : Foot
  Rb : Foot
  Rm : Foot
  Rd : Foot
  Rt : Foot
  Tt : TV

def ChRec.keep (c : Code) (dev : Device) (D : List Nat) (v : Val × Val × Val × Val) (r : ChRec) : List Item :=
  [.tensor r.Rs (constTV c dev D v.1), .tensor r.Rb (constTV c dev D v.2.1), .tensor r.Rm (constTV c dev D v.2.2.1), .tensor r.Rd (constTV c dev D v.2.2.2)]

def ChRec.temp (r : ChRec) : Item := .tensor r.Rt r.Tt

def ChRec.chan (r : ChRec) : BnChan := ⟨r.Rm.h, r.Rs.h, r.Rb.h, r.Rd.h⟩

theorem bnChan_run {C ch : Nat} {ss bs ms vs : List Val} {Rs Rb Rm Rv Re : Foot} {Ts Tb Tm Tv : TV} {ev dn : Val} {pm ps pb pd pt pv : Ptr}
    {Km Ks Kb Kd Kt Kv : List Nat} {l : List (BnChan × Ptr)}
    (wf : m.WF) (lo : Lost m0 m q) (P : Pool m m1 L) (hs : ShapeOK D c.size) (hdev : dev.type = 0)
    (vs' : Vec m Rs c [C] ss Ts) (vb : Vec m Rb c [C] bs Tb) (vm : Vec m Rm c [C] ms Tm) (vv : Vec m Rv c [C] vs Tv)
    (hE : .tensor Re (constTV c dev D ev) ∈ L) (hev : ev.WT c)
    (hpm : .raw pm Km (8 * C) ∈ L) (hps : .raw ps Ks (8 * C) ∈ L) (hpb : .raw pb Kb (8 * C) ∈ L) (hpd : .raw pd Kd (8 * C) ∈ L)
    (hpt : .raw pt Kt (56 * C) ∈ L) (hpv : .raw pv Kv (8 * C) ∈ L)
    (nm : pm ≠ .null) (ns : ps ≠ .null) (nb : pb ≠ .null) (nd : pd ≠ .null) (nt : pt = .null → ¬ E.NoFail) (nv : pv ≠ .null)
    (hc : ch < C) (hi : prod D ≤ 2147483647) (hb : prod D * c.size ≤ 4294967296) (hbc : C * c.size ≤ 4294967296)
    (hdn : DenStep E.fp c ev (vs.getD ch (.int 0)) dn) :
    Runs E m0 q (bnChan c.dtype dev (dimsCells D) D.length (prod D : Nat) Rs.h Rb.h Rm.h Rv.h Re.h ⟨pm, ps, pb, pd, pt, pv⟩ ch l E m1) (fun l' m' =>
      ∃ r : ChRec, l' = l ++ [(r.chan, r.Rt.h)] ∧
        Pool m m' (r.keep c dev D (ss.getD ch (.int 0), bs.getD ch (.int 0), ms.getD ch (.int 0), dn) ++ r.temp :: L)) := by
  unfold bnChan
  refine Runs.new P lo hs hpm nm hc fun R1 m2 P2 => ?_
  refine Runs.new P2 lo hs (List.mem_cons_of_mem _ hps) ns hc fun R2 m3 P3 => ?_
  refine Runs.new P3 lo hs (List.mem_cons_of_mem _ (List.mem_cons_of_mem _ hpb)) nb hc fun R3 m4 P4 => ?_
  refine Runs.new P4 lo hs (List.mem_cons_of_mem _ (List.mem_cons_of_mem _ (List.mem_cons_of_mem _ hpv))) nv hc fun R4 m5 P5 => ?_
  obtain ⟨m6, e6, P6⟩ := bnSpread_run (E := E) (A := [.tensor R4 (blankTV c dev D), .tensor R3 (blankTV c dev D), .tensor R2 (blankTV c dev D)]) P5 wf vm hc hi hb hbc
  obtain ⟨m7, e7, P7⟩ := bnSpread_run (E := E) (A := [.tensor R4 (blankTV c dev D), .tensor R3 (blankTV c dev D)]) P6 wf vs' hc hi hb hbc
  obtain ⟨m8, e8, P8⟩ := bnSpread_run (E := E) (A := [.tensor R4 (blankTV c dev D)]) P7 wf vb hc hi hb hbc
  obtain ⟨m9, e9, P9⟩ := bnSpread_run (E := E) (A := []) P8 wf vv hc hi hb hbc
  replace P9 : Pool m m9 (.tensor R4 (constTV c dev D (vs.getD ch (.int 0))) :: .tensor R3 (constTV c dev D (bs.getD ch (.int 0))) ::
    .tensor R2 (constTV c dev D (ss.getD ch (.int 0))) :: .tensor R1 (constTV c dev D (ms.getD ch (.int 0))) :: L) := P9
  have esp : bnSpreads Rm.h Rs.h Rb.h Rv.h R1.h R2.h R3.h R4.h ch (prod D : Nat) c.size E m5 = .ok (.inl ()) m9 := by
    unfold bnSpreads
    msimp [e6, e7, e8, e9]
  have lv := vv.el.len
  rw [vv.dims] at lv
  have wv : (vs.getD ch (.int 0)).WT c := wt_getD (N := C) vv.el.wt (by simpa [prod] using lv) hc
  have v4 : Vec m9 R4 c D (List.replicate (prod D) (vs.getD ch (.int 0))) _ := const_vec (P9.at (List.mem_cons_self)) wv hdev
  have ve : Vec m9 Re c D (List.replicate (prod D) ev) _ := const_vec (P9.at (mem_four hE)) hev hdev
  have tpt : ∀ {m2 : Mem} {L' : List Item}, Pool m9 m2 L' → touch pt (8 * ch) (8 * ch + 8) E m2 = .ok () m2 ∨ (touch pt (8 * ch) (8 * ch + 8) E m2 = .ub .nullDeref ∧ ¬ E.NoFail) := by
    intro m2 L' P'
    by_cases hn : pt = .null
    · exact .inr ⟨by rw [hn]; rfl, nt hn⟩
    · exact .inl (Temp.touch (P'.oldTemp P9.ext.wf (P9.temp (p := pt) (K := Kt) (n := 56 * C) (mem_four hpt))) hn (by omega) (by omega))
  have hroot := root_run (E := E) (Q := fun l' m' => ∃ r : ChRec, l' = l ++ [(r.chan, r.Rt.h)] ∧
        Pool m m' (r.keep c dev D (ss.getD ch (.int 0), bs.getD ch (.int 0), ms.getD ch (.int 0), dn) ++ r.temp :: L))
    (k := fun t d => do
        touch pd (8 * ch) (8 * ch + 8)
        let _ ← destroy R4.h
        return .inl (l ++ [(⟨R1.h, R2.h, R3.h, d⟩, t)])) v4 ve (ev := ev) (fun j hj => getD_replicate hj) hi P9 lo (dn := List.replicate (prod D) dn) (by simp)
    (fun j hj => by rw [getD_replicate hj, getD_replicate hj]; exact hdn)
    (fun _ => do
      touch pt (8 * ch) (8 * ch + 8)
      return .inl ()) (fun R' T' m2 P' => by
        rcases tpt P' with e | ⟨e, nf⟩
        · exact .inl (by msimp [e])
        · exact .inr ⟨by msimp [e], nf⟩) (by
        intro Rt Tt Rd m10 P10
        left
        have t := (P10.temp (p := pd) (K := Kd) (n := 8 * C) (mem_six hpd)).touch (E := E) nd
          (lo := 8 * ch) (hi := 8 * ch + 8) (by omega) (by omega)
        have P11 := P10.perm (List.perm_middle (l₁ := [_, _]))
        obtain ⟨x, P12⟩ := P11.destroy (E := E)
        refine ⟨_, _, by msimp [t, x]; rfl, ⟨R2, R3, R1, Rd, Rt, Tt⟩, rfl, P12.perm ?_⟩
        simp only [ChRec.keep, ChRec.temp, List.cons_append, List.nil_append]
        exact perm_five)
  refine hroot.of_eq ?_
  rw [show c.dtype.size = c.size from rfl]
  msimp [esp]
  refine congrArg (fun k => orRet _ k E m9) ?_
  funext t E' m'
  msimp []
  rcases touch pt (8 * ch) (8 * ch + 8) E' m' with _ | _ | _ | _ <;> rfl

end Aitisa
