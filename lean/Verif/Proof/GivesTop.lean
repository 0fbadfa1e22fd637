import Verif.Proof.GivesOps
import Verif.Proof.OwnOps
import Verif.Props.Frame

/-!
# The statuses of the dot product and of convolution
-/

namespace Aitisa

variable {α β : Type} {E : Env} {m m' : Mem}

theorem bind_ok {x : M α} {f : α → M β} {b : β} (h : (x >>= f) E m = .ok b m') : ∃ a m1, x E m = .ok a m1 ∧ f a E m1 = .ok b m' := by
  rw [run_bind] at h
  cases hr : x E m with
  | ok a m1 => rw [hr] at h; exact ⟨a, m1, rfl, h⟩
  | ub u => rw [hr] at h; cases h
  | abort => rw [hr] at h; cases h
  | fuel => rw [hr] at h; cases h

/-! ## The type of a new tensor -/

/-- The descriptor at `p` has the data type `dt`. -/
def HasDtype (m : Mem) (p : Ptr) (dt : DType) : Prop :=
  ∃ t k h h' tt ss, p = .blk t ∧ m.blk t = some ⟨h, .tensor tt⟩ ∧ tt.storage = .blk k ∧ m.blk k = some ⟨h', .storage ss⟩ ∧ ss.dtype = dt

theorem HasDtype.run {p : Ptr} {dt : DType} (h : HasDtype m p dt) : tDtype p E m = .ok dt m := by
  obtain ⟨t, k, h, h', tt, ss, rfl, e1, e2, e3, e4⟩ := h
  unfold tDtype derefT derefS derefBlk
  simp only [run_bind, e1, andThen_ok, run_pure, e2, e3, e4]

theorem HasDtype.same {n : Nat} {p : Ptr} {dt : DType} (h : HasDtype m p dt) (s : Same n m m') : HasDtype m' p dt := by
  obtain ⟨t, k, h, h', tt, ss, rfl, e1, e2, e3, e4⟩ := h
  refine ⟨t, k, h, h', tt, ss, rfl, ?_, e2, ?_, e4⟩
  · rcases s.blk t with e | ⟨-, _, l, _, f, -, e, -⟩
    · exact e.trans e1
    · rw [e1] at e; cases e; exact f.elim
  · rcases s.blk k with e | ⟨-, _, l, _, f, -, e, -⟩
    · exact e.trans e3
    · rw [e3] at e; cases e; exact f.elim

theorem createStorage_dtype {dt : DType} {dev : Device} {n : Int} {o s : Ptr} (h : createStorage dt dev n .null o E m = .ok (.success, s) m') :
    ∃ k h ss, s = .blk k ∧ m.next ≤ k ∧ m'.blk k = some ⟨h, .storage ss⟩ ∧ ss.dtype = dt := by
  unfold createStorage at h
  obtain ⟨p, m1, e1, h⟩ := bind_ok h
  split at h
  · cases h
  · next hp =>
    rw [run_rawAlloc] at e1
    split at e1
    · cases e1
      rw [if_neg (by simp)] at h
      obtain ⟨_, m2, e2, h⟩ := bind_ok h
      have := (Local.i64 (r := false) _ _ _ _ _ e2)
      obtain ⟨q, m3, e3, h⟩ := bind_ok h
      obtain ⟨_, m4, e4, h⟩ := bind_ok h
      split at h
      · cases h
      · cases h
        have hk : m3.blk m.next ≠ none := by
          intro hn
          unfold putBody at e4
          simp only [hn] at e4
          cases e4
        cases hb : m3.blk m.next with
        | none => exact absurd hb hk
        | some k =>
          have hc : k.heap ≠ .const := fun hc => by unfold putBody at e4; simp only [hb, hc, if_true] at e4; cases e4
          rw [run_putBody hb (hk := hc)] at e4
          cases e4
          exact ⟨m.next, k.heap, _, rfl, Nat.le_refl _, Mem.set_blk_same .., rfl⟩
    · cases e1; exact absurd rfl hp

theorem create_dtype {dt : DType} {dev : Device} {dims : Arr} {n : Int} {len : Nat} {o t : Ptr}
    (h : create dt dev dims n .null len o E m = .ok (.success, t) m') : HasDtype m' t dt := by
  unfold create at h
  obtain ⟨p, m1, e1, h⟩ := bind_ok h
  split at h
  · cases h
  · next hp =>
    rw [run_rawAlloc] at e1
    split at e1
    · cases e1
      obtain ⟨z, m2, e2, h⟩ := bind_ok h
      obtain ⟨_, m3, e3, h⟩ := bind_ok h
      rw [if_neg (by simp)] at h
      obtain ⟨b, m4, e4, h⟩ := bind_ok h
      cases e4
      simp only [Bool.false_eq_true, if_false] at h
      obtain ⟨⟨st, d, l⟩, m5, e5, h⟩ := bind_ok h
      obtain ⟨_, m6, e6, h⟩ := bind_ok h
      split at h
      · next hn => cases h; exact absurd rfl hn
      · obtain ⟨⟨st', s⟩, m7, e7, h⟩ := bind_ok h
        simp only at h
        split at h
        · next hn => cases h; exact absurd rfl hn
        · next hn =>
          have hs : st' = .success := Decidable.byContradiction hn
          subst hs
          obtain ⟨_, m8, e8, h⟩ := bind_ok h
          cases h
          obtain ⟨k, g, ss, rfl, hk, hb, hd⟩ := createStorage_dtype e7
          have f1 := (Local.sizeOfDims (rnd := false) dims n E _ _ _ e2).1.next
          have f2 := (Local.putBody (r := false) _ _ E _ _ _ e3).1.next
          have f3 := (Local.createShape (rnd := false) _ _ _ E _ _ _ e5).1.next
          have f4 := (Local.putBody (r := false) _ _ E _ _ _ e6).1.next
          have f0 : (m.push (.tensor ⟨0, 0, 0, .indet, .dense, .indet, .indet⟩)).next = m.next + 1 := rfl
          have hne : k ≠ m.next := by omega
          cases ht : m7.blk m.next with
          | none => unfold putBody at e8; simp only [ht] at e8; cases e8
          | some x =>
            have hc : x.heap ≠ .const := fun hc => by unfold putBody at e8; simp only [ht, hc, if_true] at e8; cases e8
            rw [run_putBody ht (hk := hc)] at e8
            cases e8
            exact ⟨m.next, k, x.heap, g, _, ss, rfl, Mem.set_blk_same .., rfl, by rw [Mem.set_blk_ne _ _ hne]; exact hb, hd⟩
    · cases e1; exact absurd rfl hp

/-- What is needed of the memory from here on. -/
def Kp (m m' : Mem) : Prop := m'.WF ∧ ∀ p dt, HasDtype m p dt → HasDtype m' p dt

theorem Quiet.kp {x : M α} {Q : α → Prop} {a : α} (hq : Quiet m.next x Q) (wf : m.WF) (h : x E m = .ok a m') : Kp m m' :=
  have q := (hq E m a m' (Sep.self wf) h).1
  ⟨(q.sep (Sep.self wf)).wf, fun _ _ d => d.same q⟩

theorem Quiet.kp0 {x : M α} {Q : α → Prop} {a : α} (hq : Quiet 0 x Q) (wf : m.WF) (h : x E m = .ok a m') : Kp m m' :=
  have sp : Sep 0 m := ⟨wf, Nat.zero_le _, fun b k _ _ => by
    have key : ∀ p : Ptr, p.New 0 := fun p => by cases p <;> first | exact Nat.zero_le _ | trivial
    cases k.body <;> first | exact ⟨key _, key _, key _⟩ | exact key _ | trivial⟩
  have q := (hq E m a m' sp h).1
  ⟨(q.sep sp).wf, fun _ _ d => d.same q⟩

theorem tDtype_ok {p : Ptr} {dt : DType} (h : tDtype p E m = .ok dt m') : HasDtype m p dt ∧ m' = m := by
  unfold tDtype at h
  obtain ⟨t, m1, e1, h⟩ := bind_ok h
  obtain ⟨s, m2, e2, h⟩ := bind_ok h
  cases h
  unfold derefT at e1
  obtain ⟨b, m3, e3, e1⟩ := bind_ok e1
  unfold derefS at e2
  obtain ⟨c, m4, e4, e2⟩ := bind_ok e2
  cases p with
  | null => cases e3
  | indet => cases e3
  | blk n =>
    unfold derefBlk at e3
    simp only at e3
    cases hb : m.blk n with
    | none => rw [hb] at e3; cases e3
    | some k =>
      rw [hb] at e3; cases e3
      obtain ⟨kh, kb⟩ := b
      cases kb <;> first | (cases e1; done) | skip
      cases e1
      cases hs : t.storage with
      | null => rw [hs] at e4; cases e4
      | indet => rw [hs] at e4; cases e4
      | blk j =>
        rw [hs] at e4
        unfold derefBlk at e4
        simp only at e4
        cases hj : m.blk j with
        | none => rw [hj] at e4; cases e4
        | some l =>
          rw [hj] at e4; cases e4
          obtain ⟨lh, lb⟩ := c
          cases lb <;> first | (cases e2; done) | skip
          cases e2
          exact ⟨⟨n, j, _, _, _, _, rfl, hb, hs, hj, rfl⟩, rfl⟩

theorem HasDtype.frame {p : Ptr} {dt : DType} (h : HasDtype m p dt) (wf : m.WF) (f : Frame m m') : HasDtype m' p dt := by
  obtain ⟨t, k, h, h', tt, ss, rfl, e1, e2, e3, e4⟩ := h
  have lt : ∀ b x, m.blk b = some x → b < m.next := fun b x e => Nat.lt_of_not_le fun hl => by rw [wf b hl] at e; cases e
  exact ⟨t, k, h, h', tt, ss, rfl, (f.same t (lt _ _ e1)).trans e1, e2, (f.same k (lt _ _ e3)).trans e3, e4⟩

theorem full_dtype {dt : DType} {dev : Device} {dims : Arr} {n : Int} {v : BitVec 64} {o t : Ptr} (wf : m.WF)
    (h : full dt dev dims n v o E m = .ok (.success, t) m') : HasDtype m' t dt := by
  unfold full at h
  obtain ⟨⟨st, p⟩, m1, e1, h⟩ := bind_ok h
  simp only at h
  split at h
  · next hn => cases h; exact absurd rfl hn
  · next hn =>
    have hs : st = .success := Decidable.byContradiction hn
    subst hs
    have d := create_dtype e1
    have w := (Local.create (rnd := false) _ _ _ _ _ _ _ E _ _ _ e1).1.wf wf
    obtain ⟨z, m2, e2, h⟩ := bind_ok h
    obtain ⟨c, m3, e3, h⟩ := bind_ok h
    obtain ⟨fp, m4, e4, h⟩ := bind_ok h
    obtain ⟨cell, m5, e5, h⟩ := bind_ok h
    obtain ⟨_, m6, e6, h⟩ := bind_ok h
    cases h
    have k2 := (Quiet.tSize t).kp w e2
    have k3 := (Quiet.tableCode dt).kp k2.1 e3
    cases e4
    have k5 : m5 = m3 := by
      cases hc : fullCell E.fp c v with
      | error u => rw [hc] at e5; cases e5
      | ok x => rw [hc] at e5; cases e5; rfl
    subst k5
    have key : ∀ q : Ptr, q.New 0 := fun q => by cases q <;> first | exact Nat.zero_le _ | trivial
    have k6 := (Quiet.forI32 (n := 0) (I := fun _ => True) (fun i _ _ => Quiet.setItem (key t) i cell) z trivial).kp0 k3.1 e6
    exact k6.2 _ _ (k3.2 _ _ (k2.2 _ _ d))

/-! ## The dot product -/

theorem binaryOp_sts {op : BinOp} {h1 h2 out p : Ptr} {d1 d2 : DType} {st : Status} (wf : m.WF) (k1 : HasDtype m h1 d1) (k2 : HasDtype m h2 d2)
    (hc : d1.code = d2.code) (h : binaryOp op h1 h2 out E m = .ok (st, p) m') :
    Sts E [.success, .allocFailed, .notSupported, .invalidArgument] st := by
  unfold binaryOp at h
  obtain ⟨v1, m1, e1, h⟩ := bind_ok h
  obtain ⟨v2, m2, e2, h⟩ := bind_ok h
  have q1 := (Quiet.tDevice h1).kp wf e1
  have q2 := (Quiet.tDevice h2).kp q1.1 e2
  split at h
  · cases h; exact .lit (by decide) (by decide)
  · obtain ⟨t1, m3, e3, h⟩ := bind_ok h
    obtain ⟨t2, m4, e4, h⟩ := bind_ok h
    rw [(q2.2 _ _ (q1.2 _ _ k1)).run] at e3
    cases e3
    rw [(q2.2 _ _ (q1.2 _ _ k2)).run] at e4
    cases e4
    rw [if_neg (by simpa using hc)] at h
    exact (show GP E [.success, .allocFailed, .notSupported, .invalidArgument] _ by giv) _ _ _ h

theorem scalarMulOf_sts {h1 big small out p : Ptr} {d1 d2 : DType} {st : Status} (wf : m.WF) (k1 : HasDtype m h1 d1) (k2 : HasDtype m big d2)
    (hc : d1.code = d2.code) (h : scalarMulOf h1 big small out E m = .ok (st, p) m') :
    Sts E [.success, .allocFailed, .notSupported, .invalidArgument] st := by
  unfold scalarMulOf at h
  obtain ⟨t1, m1, e1, h⟩ := bind_ok h
  rw [k1.run] at e1
  cases e1
  obtain ⟨v2, m2, e2, h⟩ := bind_ok h
  obtain ⟨v3, m3, e3, h⟩ := bind_ok h
  obtain ⟨v4, m4, e4, h⟩ := bind_ok h
  obtain ⟨v5, m5, e5, h⟩ := bind_ok h
  have q2 := (Quiet.tDevice h1).kp wf e2
  have q3 := (Quiet.tNdim big).kp q2.1 e3
  have q4 := (Quiet.tDimsArr big).kp q3.1 e4
  have q5 := (Quiet.dotGetValue small).kp q4.1 e5
  have k2 := q5.2 _ _ (q4.2 _ _ (q3.2 _ _ (q2.2 _ _ k2)))
  cases v5 with
  | none => cases h; exact .lit (by decide) (by decide)
  | some v =>
    obtain ⟨⟨s, t⟩, m6, e6, h⟩ := bind_ok h
    simp only at h
    split at h
    · next hn => cases h; exact (GP.full _ _ _ _ _ _ _ _ _ e6).sub (by decide)
    · next hn =>
      have hs : s = .success := Decidable.byContradiction hn
      subst hs
      obtain ⟨f, w, -⟩ := (Op.full _ _ _ _ _ _).keeps _ _ _ _ _ q5.1 e6
      have kt := full_dtype q5.1 e6
      have kb := k2.frame q5.1 f
      obtain ⟨⟨s', r⟩, m7, e7, h⟩ := bind_ok h
      obtain ⟨_, m8, e8, h⟩ := bind_ok h
      cases h
      exact binaryOp_sts w kt kb hc e7

theorem dot_sts {h1 h2 out p : Ptr} {st : Status} (wf : m.WF) (h : dot h1 h2 out E m = .ok (st, p) m') :
    Sts E [.success, .allocFailed, .notSupported, .invalidArgument, .dimensionsMismatch] st := by
  unfold dot at h
  obtain ⟨v1, m1, e1, h⟩ := bind_ok h
  obtain ⟨v2, m2, e2, h⟩ := bind_ok h
  have q1 := (Quiet.tDevice h1).kp wf e1
  have q2 := (Quiet.tDevice h2).kp q1.1 e2
  split at h
  · cases h; exact .lit (by decide) (by decide)
  · obtain ⟨t1, m3, e3, g⟩ := bind_ok h
    obtain ⟨t2, m4, e4, g⟩ := bind_ok g
    clear h
    obtain ⟨k1, hm⟩ := tDtype_ok e3
    obtain ⟨k2, hm'⟩ := tDtype_ok e4
    rw [hm', hm] at g
    rw [hm] at k2
    have h := g
    clear g
    split at h
    · cases h; exact .lit (by decide) (by decide)
    · next hc =>
      have hc : t1.code = t2.code := Decidable.byContradiction hc
      obtain ⟨n1, m5, e5, h⟩ := bind_ok h
      obtain ⟨n2, m6, e6, h⟩ := bind_ok h
      have q5 := (Quiet.tNdim h1).kp q2.1 e5
      have q6 := (Quiet.tNdim h2).kp q5.1 e6
      have k1 := q6.2 _ _ (q5.2 _ _ k1)
      have k2 := q6.2 _ _ (q5.2 _ _ k2)
      split at h
      · exact (GP.vecDot _ _ _ _ _ _ h).sub (by decide)
      split at h
      · exact (GP.matmul _ _ _ _ _ _ h).sub (by decide)
      split at h
      · unfold scalarMul at h
        obtain ⟨n3, m7, e7, h⟩ := bind_ok h
        obtain ⟨n4, m8, e8, h⟩ := bind_ok h
        have q7 := (Quiet.tNdim h1).kp q6.1 e7
        have q8 := (Quiet.tNdim h2).kp q7.1 e8
        have k1 := q8.2 _ _ (q7.2 _ _ k1)
        have k2 := q8.2 _ _ (q7.2 _ _ k2)
        split at h
        · exact (scalarMulOf_sts q8.1 k1 k1 rfl h).sub (by decide)
        · exact (scalarMulOf_sts q8.1 k1 k2 hc h).sub (by decide)
      split at h
      · exact (GP.tvDot _ _ _ _ _ _ h).sub (by decide)
      split at h
      · exact (GP.mdDot _ _ _ _ _ _ h).sub (by decide)
      · cases h; exact .lit (by decide) (by decide)

/-! ## Convolution -/

/-- A status of a convolution. -/
def CSts (E : Env) (L : List Status) (l : List Status) (st : Status) : Prop := Sts E L st ∨ st ∈ l

theorem Fall.get_sts (j : Fall) {L : List Status} : Yields E j.get (CSts E L j.toList) := by
  cases j with
  | none => exact Yields.ub _
  | some s => exact Yields.pure (.inr (by simp))

theorem convMain_sts (j : Fall) (h f : Ptr) (a b c d e : Arr) (n : Int) (out po pi pf pc pt si sf so : Ptr) :
    Yields E (convMain j h f a b c d e n out po pi pf pc pt si sf so) fun r => CSts E [.allocFailed] j.toList r.1 := by
  unfold convMain
  dsimp only
  iterate 11 refine Yields.bind (Yields.any _) fun _ _ => ?_
  refine Yields.bind (GP.create _ _ _ _ _ _) fun r hr => ?_
  obtain ⟨st, t⟩ := r
  dsimp only at hr ⊢
  by_cases hs : st ≠ .success
  · rw [if_pos hs]; exact Yields.pure (.inl (hr.fail hs (by decide)))
  · rw [if_neg hs]
    iterate 2 refine Yields.bind (Yields.any _) fun _ _ => ?_
    exact Yields.bind (Fall.get_sts j) fun _ h => Yields.pure h

theorem conv_sts (j j' : Fall) (h f : Ptr) (a b c : Arr) (g : Int) (out : Ptr) :
    Yields E (conv j j' h f a b c g out) fun r => CSts E [.allocFailed, .notSupported] (j.toList ++ j'.toList) r.1 := by
  unfold conv
  refine Yields.bind (Yields.any _) fun dt _ => ?_
  by_cases hd : dt.code = Code.f32.toNat
  · rw [if_pos hd]
    refine Yields.bind (P := fun r => CSts E [.allocFailed] j.toList r.1) ?_ fun r hr => ?_
    · unfold convFloat
      iterate 11 refine Yields.bind (Yields.any _) fun _ _ => ?_
      exact convMain_sts _ _ _ _ _ _ _ _ _ _ _ _ _ _ _ _ _ _
    · obtain ⟨st, t⟩ := r
      dsimp only at hr ⊢
      by_cases hs : st ≠ .success
      · rw [if_pos hs]
        refine Yields.pure ?_
        rcases hr with h | h
        · exact .inl (h.sub (by decide))
        · exact .inr (List.mem_append_left _ h)
      · rw [if_neg hs]
        refine Yields.bind (Fall.get_sts j' (L := [])) fun _ h => Yields.pure ?_
        rcases h with h | h
        · exact .inl (h.sub (by simp))
        · exact .inr (List.mem_append_right _ h)
  · rw [if_neg hd]; exact Yields.pure (.inl (.lit (by simp) (by simp)))

theorem CSts.sub {L L' l : List Status} {st : Status} (h : CSts E L l st) (hs : ∀ s ∈ L, s ∈ L') : CSts E L' l st := h.imp (·.sub hs) id

theorem conv2d_sts (j j' : Fall) (h f : Ptr) (a b c : Arr) (g : Int) (out : Ptr) :
    Yields E (conv2d j j' h f a b c g out) fun r => CSts E [.allocFailed, .notSupported, .dimensionsMismatch] (j.toList ++ j'.toList) r.1 := by
  unfold conv2d
  refine Yields.bind (Yields.any _) fun n _ => ?_
  by_cases hn : n ≠ 4
  · rw [if_pos hn]; exact Yields.pure (.inl (.lit (by simp) (by simp)))
  · rw [if_neg hn]; exact fun _ _ _ e => (conv_sts _ _ _ _ _ _ _ _ _ _ _ _ e).sub (by decide)

theorem conv3d_sts (j j' : Fall) (h f : Ptr) (a b c : Arr) (g : Int) (out : Ptr) :
    Yields E (conv3d j j' h f a b c g out) fun r => CSts E [.allocFailed, .notSupported, .dimensionsMismatch] (j.toList ++ j'.toList) r.1 := by
  unfold conv3d
  refine Yields.bind (Yields.any _) fun n _ => ?_
  by_cases hn : n ≠ 5
  · rw [if_pos hn]; exact Yields.pure (.inl (.lit (by simp) (by simp)))
  · rw [if_neg hn]; exact fun _ _ _ e => (conv_sts _ _ _ _ _ _ _ _ _ _ _ _ e).sub (by decide)

end Aitisa
