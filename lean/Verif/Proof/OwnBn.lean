import Verif.Proof.OwnNN

/-!
# Ownership in batch normalisation
-/

namespace Aitisa

variable {α β σ ρ : Type} {n : Nat} {E : Env} {m m' m0 : Mem} {k : Bool} {L L' : List Tok}

/-- A result meets `I`, and a failure keeps `L`. -/
def Stp (I : α → Mem → Prop) (n : Nat) (L : List Tok) (r : α ⊕ Status) (m : Mem) : Prop :=
  match r with
  | .inl a => I a m
  | .inr st => st ≠ .success ∧ Own false n L m

theorem Stp.step {x : M (α ⊕ Status)} {P : Mem → Prop} (h : Tri n m0 P x (Stp (fun _ => Own k n L) n L)) : Tri n m0 P x (Step k n L) :=
  h.post fun r m hr => by cases r <;> exact hr

theorem Tri.stpOk {a : α} {P : Mem → Prop} {I : α → Mem → Prop} (h : ∀ m, P m → I a m) :
    Tri n m0 P (Pure.pure (.inl a) : M (α ⊕ Status)) (Stp I n L) := Tri.pure h

theorem Tri.stpBad {st : Status} {I : α → Mem → Prop} (h : st ≠ .success) (hL : L.Sublist L') :
    Tri n m0 (Own k n L') (Pure.pure (.inr st) : M (α ⊕ Status)) (Stp I n L) := Tri.pure fun _ o => ⟨h, o.sub hL⟩

theorem Tri.bindStp {x : M (α ⊕ Status)} {f : α ⊕ Status → M β} {P : Mem → Prop} {Q : β → Mem → Prop} {I : α → Mem → Prop}
    (hx : Tri n m0 P x (Stp I n L)) (hs : ∀ a, Tri n m0 (I a) (f (.inl a)) Q)
    (hf : ∀ st, st ≠ .success → Tri n m0 (Own false n L) (f (.inr st)) Q) : Tri n m0 P (x >>= f) Q := by
  refine Tri.bind hx fun r => ?_
  cases r with
  | inl a => exact hs a
  | inr st => exact Tri.and (hf st)

theorem Tri.orRetOp {x : M (Status × Ptr)} {f : Ptr → M (α ⊕ Status)} {I : α → Mem → Prop} (hL : L.Sublist L') (hx : Op x)
    (hf : ∀ R : Foot, R.h.New n → Tri n m0 (Own k n (.ten R :: L')) (f R.h) (Stp I n L)) :
    Tri n m0 (Own k n L') (orRet x f) (Stp I n L) := by
  unfold orRet
  refine Tri.bindOp hx (fun R hR => ?_) fun st p h => ?_
  · simp only [ne_eq, not_true_eq_false, if_false]; exact hf R hR
  · simp only [ne_eq, h, not_false_eq_true, if_true]; exact Tri.stpBad h hL

theorem Tri.orRetDestroy {R : Foot} {f : Ptr → M (α ⊕ Status)} {Q : α ⊕ Status → Mem → Prop} (i : Nat) (hi : L[i]? = some (.ten R))
    (hf : Tri n m0 (Own k n (L.eraseIdx i)) (f .null) Q) : Tri n m0 (Own k n L) (orRet (Aitisa.destroy R.h) f) Q := by
  unfold orRet
  refine Tri.bindDestroy i hi ?_
  simp only [ne_eq, not_true_eq_false, if_false]; exact hf

theorem Tri.bnOp {op : BinOp} {a b : Ptr} {R : Foot} {f : Ptr → M (α ⊕ Status)} {I : α → Mem → Prop}
    (hf : ∀ R' : Foot, R'.h.New n → Tri n m0 (Own k n (.ten R' :: L)) (f R'.h) (Stp I n L)) :
    Tri n m0 (Own k n (.ten R :: L)) (bnOp op a b R.h f) (Stp I n L) :=
  Tri.orRetOp (List.sublist_cons_self _ _) (Op.binaryOp _ _ _ _) fun R' h' => Tri.orRetDestroy 1 rfl (hf R' h')

/-- The two tensors that remain after the computation of a channel. -/
def Two (k : Bool) (n : Nat) (L : List Tok) (r : Ptr × Ptr) (m : Mem) : Prop :=
  ∃ R : Foot × Foot, (r = (R.1.h, R.2.h) ∧ R.2.h.New n) ∧ Own k n (.ten R.2 :: .ten R.1 :: L) m

theorem Tri.bnChain (h : Ptr) (bg sz st ax : Arr) (nax : Int) (sc bi me de : Ptr) :
    Tri n m0 (Own k n L) (bnChain h bg sz st ax nax sc bi me de) (Stp (Two k n L) n L) := by
  unfold Aitisa.bnChain
  refine Tri.orRetOp (List.Sublist.refl _) (Op.slice _ _ _ _ _) fun R0 _ => ?_
  refine Tri.orRetOp (List.sublist_cons_self _ _) (Op.squeeze _ _ _ _) fun R1 _ => ?_
  refine Tri.orRetDestroy 1 rfl ?_
  refine Tri.bnOp fun R2 _ => Tri.bnOp fun R3 _ => Tri.bnOp fun R4 _ => ?_
  refine Tri.orRetOp (List.sublist_cons_self _ _) (Op.binaryOp _ _ _ _) fun R5 h5 => ?_
  exact Tri.stpOk fun m o => ⟨(R4, R5), ⟨rfl, h5⟩, o⟩

theorem Tri.bnRelease {R0 R1 : Foot} {x : M Unit} (hx : Quiet n x fun _ => True) (b : Bool) :
    Tri n m0 (Own k n (.ten R1 :: .ten R0 :: L)) (bnRelease R0.h R1.h x b) (Step k n L) := by
  unfold Aitisa.bnRelease
  refine Tri.ite (fun _ => ?_) fun _ => ?_
  · exact Tri.orRetDestroy 1 rfl (Tri.bindQ hx fun _ _ => Tri.orRetDestroy 0 rfl Tri.stepOk)
  · exact Tri.bindQ hx fun _ _ => Tri.orRetDestroy 1 rfl (Tri.orRetDestroy 0 rfl Tri.stepOk)

theorem Tri.bnRow (h sc bi me de : Ptr) {op : Ptr} (hp : op.New n) (sz : Nat) (size : List Int) (s : Nat) (b : Int) :
    Tri n m0 (Own k n L) (bnRow h sc bi me de op sz size s b) (Step k n L) := by
  unfold Aitisa.bnRow
  refine Tri.bindStp (Tri.bnChain _ _ _ _ _ _ _ _ _ _) (fun a => ?_) fun st h => Tri.stepBad h (List.Sublist.refl _)
  refine Tri.ex fun R => Tri.and fun hR => ?_
  obtain ⟨rfl, -⟩ := hR
  refine Tri.bindStep (Tri.bnRelease (Quiet.bnCopy hp _ _ _) _) (fun _ => ?_) fun st h => Tri.stepBad h (List.Sublist.refl _)
  exact Tri.bindQ (Quiet.i32 _) fun _ _ => Tri.stepOk

macro_rules | `(tactic| own_step) => `(tactic| with_reducible exact Tri.stepOk)
macro_rules | `(tactic| own_step) => `(tactic| ((with_reducible refine Tri.stepBad ?_ ?_); (focus first | assumption | decide); own_sub; done))

theorem Tri.bnPlain (h sc bi me de : Ptr) {t : Ptr} (ht : t.New n) : Tri n m0 (Own k n L) (bnPlain h sc bi me de t) (Step k n L) := by
  unfold Aitisa.bnPlain
  own
  refine Tri.bindStep (Tri.loopStep (fun i s => Tri.bnRow _ _ _ _ _ (by quiet_side) _ _ _ _) _ _ _) (fun _ => ?_) fun st h => ?_
  · own
  · own

theorem Quiet.bnGet (A : BnArrs) (c : Nat) : Quiet n (A.get c) fun x => A.ch[c]? = some x := by
  unfold BnArrs.get
  refine Quiet.bind (Quiet.touch _ _ _) fun _ _ => Quiet.bind (Quiet.touch _ _ _) fun _ _ => Quiet.bind (Quiet.touch _ _ _) fun _ _ =>
    Quiet.bind (Quiet.touch _ _ _) fun _ _ => ?_
  split
  · next h => exact Quiet.pure h
  · exact Quiet.ub _

theorem Tri.bnCell (h : Ptr) (axis : Int) (A : BnArrs) {t : Ptr} (ht : t.New n) (size step off : List Int) (s c : Nat) (idx : List Int) :
    Tri n m0 (Own k n L) (bnCell h axis A t size step off s c idx) (Step k n L) := by
  unfold Aitisa.bnCell
  refine Tri.bindQ (Quiet.bnGet _ _) fun x _ => ?_
  refine Tri.bindStp (Tri.bnChain _ _ _ _ _ _ _ _ _ _) (fun a => ?_) fun st h => Tri.stepBad h (List.Sublist.refl _)
  refine Tri.ex fun R => Tri.and fun hR => ?_
  obtain ⟨rfl, -⟩ := hR
  refine Tri.bindQ (Quiet.bnTransport _ ht _ _ _) fun _ _ => ?_
  refine Tri.bindStep (Tri.bnRelease (Quiet.pure trivial) _) (fun _ => ?_) fun st h => Tri.stepBad h (List.Sublist.refl _)
  exact Tri.stepOk

theorem Tri.bnLoops (h : Ptr) (axis : Int) (A : BnArrs) {t : Ptr} (ht : t.New n) (nb nc : Int) (ds : List Int) :
    Tri n m0 (Own k n L) (bnLoops h axis A t nb nc ds) (Step k n L) := by
  unfold Aitisa.bnLoops
  exact Tri.bindQ (Quiet.offsets _) fun _ _ => Tri.loopStep (fun i s => Tri.loopStep (fun i s => Tri.bnCell _ _ _ ht _ _ _ _ _ _) _ _ _) _ _ _

theorem Tri.bnChannels (h : Ptr) (axis : Int) (A : BnArrs) {t : Ptr} (ht : t.New n) :
    Tri n m0 (Own k n L) (bnChannels h axis A t) (Step k n L) := by
  unfold Aitisa.bnChannels
  own
  refine Tri.bindStep (Tri.bnLoops _ _ _ ht _ _ _) (fun _ => ?_) fun st h => ?_
  · own
  · own

/-- The tensor that remains. -/
def One (k : Bool) (n : Nat) (L : List Tok) (p : Ptr) (m : Mem) : Prop := ∃ R : Foot, p = R.h ∧ Own k n (.ten R :: L) m

theorem Tri.bnDenom (h va : Ptr) (eps : BitVec 64) : Tri n m0 (Own k n L) (bnDenom h va eps) (Stp (One k n L) n L) := by
  unfold Aitisa.bnDenom
  refine Tri.bindQ (Quiet.tDtype _) fun _ _ => Tri.bindQ (Quiet.tDevice _) fun _ _ => Tri.bindQ (Quiet.tDimsArr _) fun _ _ =>
    Tri.bindQ (Quiet.tNdim _) fun _ _ => ?_
  refine Tri.orRetOp (List.Sublist.refl _) (Op.full _ _ _ _ _ _) fun R0 _ => ?_
  refine Tri.orRetOp (List.sublist_cons_self _ _) (Op.binaryOp _ _ _ _) fun R1 _ => ?_
  refine Tri.orRetOp (by own_sub) (Op.sqrt _ _) fun R2 _ => ?_
  refine Tri.bindDestroy 2 rfl (Tri.bindDestroy 1 rfl ?_)
  exact Tri.stpOk fun m o => ⟨R2, rfl, o⟩

/-! ## Rank three to five -/

theorem Tri.perm {x : M α} {Q : α → Mem → Prop} (p : L.Perm L') (h : Tri n m0 (Own k n L') x Q) : Tri n m0 (Own k n L) x Q :=
  h.pre fun _ o => o.perm p

/-- The tensors of one channel. -/
structure Feet where
  sc : Foot
  bi : Foot
  me : Foot
  de : Foot
  tmp : Foot

/-- The handles of the channel. -/
def Feet.chan (f : Feet) : BnChan := ⟨f.me.h, f.sc.h, f.bi.h, f.de.h⟩

/-- The tensors that are kept. -/
def Feet.four (f : Feet) : List Tok := [.ten f.sc, .ten f.bi, .ten f.me, .ten f.de]

/-- What the tensors of the channels own. -/
def feetToks (F : List Feet) (L : List Tok) : List Tok := F.map (fun f => .ten f.tmp) ++ (F.flatMap Feet.four ++ L)

/-- The channels made so far. -/
def Chans (k : Bool) (n : Nat) (L : List Tok) (i : Nat) (l : List (BnChan × Ptr)) (m : Mem) : Prop :=
  ∃ F : List Feet, (l = F.map (fun f => (f.chan, f.tmp.h)) ∧ F.length = i) ∧ Own k n (feetToks F L) m

theorem feetToks_sub (F : List Feet) (L : List Tok) : L.Sublist (feetToks F L) :=
  (List.sublist_append_right _ _).trans (List.sublist_append_right _ _)

theorem Tri.bnNew {dt : DType} {dev : Device} {pds : Arr} {nd : Int} {p : Ptr} {c : Nat} {f : Ptr → M (α ⊕ Status)} {I : α → Mem → Prop}
    (hL : L.Sublist L') (hf : ∀ R : Foot, R.h.New n → Tri n m0 (Own k n (.ten R :: L')) (f R.h) (Stp I n L)) :
    Tri n m0 (Own k n L') (bnNew dt dev pds nd p c f) (Stp I n L) :=
  Tri.orRetOp hL (Op.create _ _ _ _ _ _) fun R hR => Tri.bindQ (Quiet.touch _ _ _) fun _ _ => hf R hR

theorem Tri.bnChan (dt : DType) (dev : Device) (pds : Arr) (nd size : Int) (sc bi me va e : Ptr) (P : BnPtrs) (c : Nat)
    (l : List (BnChan × Ptr)) :
    Tri n m0 (Chans k n L c l) (bnChan dt dev pds nd size sc bi me va e P c l) (Stp (Chans k n L (c + 1)) n L) := by
  refine Tri.ex fun F => Tri.and fun hF => ?_
  obtain ⟨hl, hlen⟩ := hF
  have hs := feetToks_sub F L
  unfold Aitisa.bnChan
  refine Tri.bnNew hs fun Rm hm => Tri.bnNew (hs.cons _) fun Rs hsn => Tri.bnNew ((hs.cons _).cons _) fun Rb hb =>
    Tri.bnNew (((hs.cons _).cons _).cons _) fun Rv hv => ?_
  refine Tri.bindQ (Quiet.bnSpreads _ _ _ _ hm hsn hb hv _ _ _) fun _ _ => ?_
  refine Tri.orRetOp ((((hs.cons _).cons _).cons _).cons _) (Op.binaryOp _ _ _ _) fun Rt _ => Tri.bindQ (Quiet.touch _ _ _) fun _ _ => ?_
  refine Tri.orRetOp (((((hs.cons _).cons _).cons _).cons _).cons _) (Op.sqrt _ _) fun Rd _ => Tri.bindQ (Quiet.touch _ _ _) fun _ _ => ?_
  refine Tri.bindDestroy 2 rfl (Tri.stpOk fun m o => ?_)
  refine ⟨F ++ [⟨Rs, Rb, Rm, Rd, Rt⟩], ⟨?_, by simp [hlen]⟩, o.perm ?_⟩
  · simp [hl, Feet.chan]
  · classical
    refine List.perm_iff_count.2 fun a => ?_
    simp only [feetToks, List.eraseIdx, List.map_append, List.map_cons, List.map_nil, List.flatMap_append, List.flatMap_cons, List.flatMap_nil,
      Feet.four, List.count_append, List.count_cons, List.count_nil]
    omega

/-- The result of `get_intermediate_tensors`. -/
def Params (k : Bool) (n : Nat) (L : List Tok) (v : Int) (A : BnArrs) (m : Mem) : Prop :=
  ∃ F : List Feet, (A.ch = F.map Feet.chan ∧ F.length = v.toNat) ∧
    Own k n (F.flatMap Feet.four ++ (.raw A.pd :: .raw A.pb :: .raw A.ps :: .raw A.pm :: L)) m

theorem Tri.bnDropTemp (F : List Feet) (i : Nat) :
    Tri n m0 (Own k n ((F.drop i).map (fun f => .ten f.tmp) ++ L)) (bnDropTemp (F.map fun f => (f.chan, f.tmp.h)) i)
      fun _ => Own k n ((F.drop (i + 1)).map (fun f => .ten f.tmp) ++ L) := by
  unfold Aitisa.bnDropTemp
  by_cases hi : i < F.length
  · rw [List.getElem?_map, List.getElem?_eq_getElem hi, List.drop_eq_getElem_cons hi]
    exact Tri.bindDestroy 0 rfl (Tri.pure fun m o => o)
  · rw [List.getElem?_map, List.getElem?_eq_none (Nat.le_of_not_lt hi)]
    exact Tri.ub _

theorem Tri.bnParamsEnd {R : Foot} (P : BnPtrs) (pp : Ptr) (nc : Int) (l : List (BnChan × Ptr)) :
    Tri n m0 (Chans k n (.raw P.pv :: .raw P.pt :: .raw P.pd :: .raw P.pb :: .raw P.ps :: .raw P.pm :: .ten R :: .raw pp :: L) nc.toNat l)
      (bnParamsEnd R.h P pp nc l) (Stp (Params k n L nc) n L) := by
  refine Tri.ex fun F => Tri.and fun hF => ?_
  obtain ⟨rfl, hlen⟩ := hF
  unfold Aitisa.bnParamsEnd
  refine Tri.perm (L' := .ten R :: .raw P.pv :: .raw pp :: (F.map (fun f => .ten f.tmp) ++ (.raw P.pt ::
    (F.flatMap Feet.four ++ (.raw P.pd :: .raw P.pb :: .raw P.ps :: .raw P.pm :: L))))) ?_ ?_
  · classical
    refine List.perm_iff_count.2 fun a => ?_
    simp only [feetToks, List.count_append, List.count_cons]
    omega
  refine Tri.bindDestroy 0 rfl (Tri.bindFree 0 rfl (Tri.bindFree 0 rfl ?_))
  refine Tri.bind ((Tri.loopN (I := fun i _ => Own k n ((F.drop i).map (fun f => .ten f.tmp) ++ (.raw P.pt ::
    (F.flatMap Feet.four ++ (.raw P.pd :: .raw P.pb :: .raw P.ps :: .raw P.pm :: L))))) (fun i _ => Tri.bnDropTemp F i) nc.toNat 0 ()).pre
      fun m o => o) fun _ => ?_
  rw [Nat.zero_add, ← hlen, List.drop_length]
  refine Tri.bindFree 0 rfl (Tri.stpOk fun m o => ⟨F, ⟨?_, hlen⟩, o⟩)
  simp

theorem Tri.bnChanLoop (dt : DType) (dev : Device) (pds : Arr) (nd size : Int) (sc bi me va e : Ptr) (P : BnPtrs) (nc : Int) :
    Tri n m0 (Own k n L) (forU32E nc [] (Aitisa.bnChan dt dev pds nd size sc bi me va e P)) (Stp (Chans k n L nc.toNat) n L) := by
  unfold Aitisa.forU32E
  refine Tri.ite (fun _ => ?_) fun _ => ?_
  · refine Tri.post (Tri.pre (Tri.loopE (I := fun i l => Chans k n L i l) (J := fun st m => st ≠ .success ∧ Own false n L m)
      (fun i l => (Tri.bnChan _ _ _ _ _ _ _ _ _ _ _ i l).post fun r m hr => ?_) nc.toNat 0 []) ?_) ?_
    · cases r <;> exact hr
    · exact fun m o => ⟨[], ⟨rfl, rfl⟩, o⟩
    · intro r m hr
      cases r with
      | inl l =>
        have hr : Chans k n L (0 + nc.toNat) l m := hr
        rw [Nat.zero_add] at hr; exact hr
      | inr st => exact hr
  · intro E m a m' s ag p e; cases e

theorem Tri.bnParamsMain (dt : DType) (dev : Device) (pp : Ptr) (pds : List Int) (nc : Int) (sc bi me va : Ptr) (eps : BitVec 64) :
    Tri n m0 (Own k n (.raw pp :: L)) (bnParamsMain dt dev pp pds nc sc bi me va eps) (Stp (Params k n L nc) n L) := by
  unfold Aitisa.bnParamsMain
  refine Tri.orRetOp (List.sublist_cons_self _ _) (Op.full _ _ _ _ _ _) fun R _ => ?_
  refine Tri.bindQ (Quiet.sizeOfDims _ _) fun size _ => ?_
  refine Tri.bindScratch fun pm _ => Tri.bindScratch fun ps _ => Tri.bindScratch fun pb _ => Tri.bindScratch fun pd _ =>
    Tri.bindScratch fun pt _ => Tri.bindScratch fun pv _ => ?_
  refine Tri.ite (fun _ => Tri.stpBad (by decide) (by own_sub)) fun _ => ?_
  refine Tri.bindStp (I := fun l => Chans k n (.raw pv :: .raw pt :: .raw pd :: .raw pb :: .raw ps :: .raw pm :: .ten R :: .raw pp :: L) nc.toNat l)
    (L := .raw pv :: .raw pt :: .raw pd :: .raw pb :: .raw ps :: .raw pm :: .ten R :: .raw pp :: L) ?_
    (fun l => Tri.bnParamsEnd ⟨pm, ps, pb, pd, pt, pv⟩ pp nc l) fun st h => Tri.stpBad h (by own_sub)
  exact Tri.bnChanLoop _ _ _ _ _ _ _ _ _ _ _ _

/-- What the dim is, wherever the memory that existed at the start is unchanged. -/
def Sees (n : Nat) (m0 : Mem) (h : Ptr) (i v : Int) : Prop := ∀ E m, (∀ b, b < n → m.blk b = m0.blk b) → tDim h i E m = .ok v m

theorem Tri.bindSees {h : Ptr} {i v : Int} {f : Int → M β} {P : Mem → Prop} {Q : β → Mem → Prop} (hv : Sees n m0 h i v)
    (hf : Tri n m0 P (f v) Q) : Tri n m0 P (tDim h i >>= f) Q := by
  intro E m a m' s ag p e
  have e1 := hv E m ag
  rw [run_bind, e1] at e
  obtain ⟨s1, ag1, q, j⟩ := hf E m a m' s ag p e
  exact ⟨s1, ag1, q, (Quiet.tDim h i E m v m s e1).2.2.bind j⟩

theorem derefBlk_ok {p : Ptr} {b : Block} (h : derefBlk p E m = .ok b m') : m' = m ∧ ∃ c, p = .blk c ∧ m.blk c = some b := by
  unfold derefBlk at h
  split at h
  · cases h
  · cases h
  · split at h <;> cases h
    exact ⟨rfl, _, rfl, ‹_›⟩

theorem Tri.tDimSees (h : Ptr) (i : Int) :
    Tri n m0 (Own true n []) (tDim h i) fun v m => (∃ v, Sees n m0 h i v) ∧ Own true n [] m := by
  intro E m v m' s ag o e
  obtain ⟨s1, -, sim⟩ := Quiet.tDim h i E m v m' s e
  refine ⟨s1.sep s, fun b hb => (s1.below hb).trans (ag b hb), ⟨⟨v, ?_⟩, o.same s1⟩, sim⟩
  have low : ∀ b, m.blk b ≠ none → b < n := fun b hb => Nat.lt_of_not_le fun hle => by
    have := o.live rfl b hle hb
    simp [tokBlocks] at this
  intro E2 m2 ag2
  have eq : ∀ b, m.blk b ≠ none → m2.blk b = m.blk b := fun b hb => (ag2 b (low b hb)).trans (ag b (low b hb)).symm
  have e := e
  unfold Aitisa.tDim Aitisa.tDims Aitisa.loadI Aitisa.derefT Aitisa.derefI Aitisa.derefBlk at e ⊢
  cases h with
  | null => cases e
  | indet => cases e
  | blk b =>
    simp only [run_bind] at e ⊢
    cases hb : m.blk b with
    | none => simp only [hb] at e; cases e
    | some K =>
      rw [eq b (by rw [hb]; simp), hb]
      simp only [hb, Res.andThen] at e ⊢
      obtain ⟨hh, body⟩ := K
      cases body <;> simp only [run_pure, ubM] at e ⊢ <;> try cases e
      rename_i t
      cases hd : t.dims with
      | null => rw [hd] at e; cases e
      | indet => rw [hd] at e; cases e
      | blk d =>
        simp only [hd] at e ⊢
        cases hb2 : m.blk d with
        | none => simp only [hb2] at e; cases e
        | some K =>
          rw [eq d (by rw [hb2]; simp), hb2]
          simp only [hb2] at e ⊢
          obtain ⟨hh, body⟩ := K
          cases body <;> simp only [run_pure, ubM] at e ⊢ <;> try cases e
          rename_i l
          unfold Arr.rd at e ⊢
          by_cases hc : 0 ≤ i ∧ i < l.length
          · rw [if_pos hc] at e ⊢
            cases hx : l[i.toNat]? with
            | none => rw [hx] at e; cases e
            | some y =>
              cases y with
              | none => rw [hx] at e; cases e
              | some y => rw [hx] at e; cases e; rfl
          · rw [if_neg hc] at e; cases e

theorem Tri.bnPairSees (c : Nat) (h : Ptr) (i : Int) (a b : Ptr) :
    Tri n m0 (Own true n []) (bnPair c (tDim h i) a b) fun st m => (st = .success → ∃ v, Sees n m0 h i v) ∧ Own true n [] m := by
  unfold Aitisa.bnPair
  refine Tri.bindQ (Quiet.tDtype _) fun _ _ => ?_
  refine Tri.ite (fun _ => Tri.pure fun _ o => ⟨fun h => (by cases h), o⟩) fun _ => ?_
  refine Tri.bindQ (Quiet.tDtype _) fun _ _ => ?_
  refine Tri.ite (fun _ => Tri.pure fun _ o => ⟨fun h => (by cases h), o⟩) fun _ => ?_
  refine Tri.bind (Tri.tDimSees h i) fun v => Tri.and fun hv => ?_
  refine (Tri.quiet (F := fun _ => True) ?_).post fun _ _ h => ⟨fun _ => hv, h.2⟩
  quiet

theorem Tri.bnCheckSees (h : Ptr) (i : Int) (a b c d : Ptr) (e : BitVec 64) :
    Tri n m0 (Own true n []) (bnCheck h i a b c d e) fun st m => (st = .success → ∃ v, Sees n m0 h i v) ∧ Own true n [] m := by
  unfold Aitisa.bnCheck
  refine Tri.bindQ (Quiet.tDtype _) fun _ _ => Tri.bindQ (Quiet.tNdim _) fun _ _ => ?_
  refine Tri.ite (fun _ => Tri.pure fun _ o => ⟨fun h => (by cases h), o⟩) fun _ => ?_
  refine Tri.ite (fun _ => Tri.pure fun _ o => ⟨fun h => (by cases h), o⟩) fun _ => ?_
  refine Tri.bind (Tri.bnPairSees _ _ _ _ _) fun st => Tri.and fun hv => ?_
  refine Tri.ite (fun hn => Tri.pure fun _ o => ⟨fun h => absurd h hn, o⟩) fun hs => ?_
  refine (Tri.quiet (F := fun _ => True) ?_).post fun _ _ h => ⟨fun _ => hv (Classical.not_not.1 hs), h.2⟩
  quiet

theorem Tri.bnParams {h : Ptr} {axis v : Int} (hv : Sees n m0 h axis v) (sc bi me va : Ptr) (eps : BitVec 64) :
    Tri n m0 (Own k n L) (bnParams h axis sc bi me va eps) (Stp (Params k n L v) n L) := by
  unfold Aitisa.bnParams
  refine Tri.bindQ (Quiet.tNdim _) fun _ _ => Tri.bindQ (Quiet.tDtype _) fun _ _ => Tri.bindQ (Quiet.tDevice _) fun _ _ =>
    Tri.bindQ (Quiet.tDimsArr _) fun _ _ => Tri.bindSees hv ?_
  refine Tri.bindScratch fun pp _ => ?_
  refine Tri.ite (fun _ => Tri.stpBad (by decide) (List.sublist_cons_self _ _)) fun _ => ?_
  exact Tri.bindQ (Quiet.touch _ _ _) fun _ _ => Tri.bindQ (Quiet.rdAll _ _) fun _ _ => Tri.bnParamsMain _ _ _ _ _ _ _ _ _ _

theorem Tri.bnDrop {A : BnArrs} {F : List Feet} (hA : A.ch = F.map Feet.chan) (i : Nat) :
    Tri n m0 (Own k n ((F.drop i).flatMap Feet.four ++ L)) (bnDrop A i) fun _ => Own k n ((F.drop (i + 1)).flatMap Feet.four ++ L) := by
  unfold Aitisa.bnDrop
  refine Tri.bindQ (Quiet.bnGet _ _) fun x hx => ?_
  rw [hA, List.getElem?_map] at hx
  by_cases hi : i < F.length
  · rw [List.getElem?_eq_getElem hi] at hx
    cases hx
    rw [List.drop_eq_getElem_cons hi]
    exact Tri.bindDestroy 0 rfl (Tri.bindDestroy 0 rfl (Tri.bindDestroy 0 rfl (Tri.bindDestroy 0 rfl (Tri.pure fun m o => o))))
  · rw [List.getElem?_eq_none (Nat.le_of_not_lt hi)] at hx
    cases hx

theorem Tri.bnEnd {h : Ptr} {axis v : Int} (hv : Sees n m0 h axis v) {A : BnArrs} {F : List Feet} (hA : A.ch = F.map Feet.chan) (hl : F.length = v.toNat) :
    Tri n m0 (Own k n (F.flatMap Feet.four ++ (.raw A.pd :: .raw A.pb :: .raw A.ps :: .raw A.pm :: L))) (bnEnd h axis A) fun _ => Own k n L := by
  unfold Aitisa.bnEnd
  refine Tri.bindSees hv ?_
  refine Tri.bind ((Tri.loopN (I := fun i _ => Own k n ((F.drop i).flatMap Feet.four ++ (.raw A.pd :: .raw A.pb :: .raw A.ps :: .raw A.pm :: L)))
    (fun i _ => Tri.bnDrop hA i) v.toNat 0 ()).pre fun m o => o) fun _ => ?_
  rw [Nat.zero_add, ← hl, List.drop_length]
  exact Tri.bindFree 2 rfl (Tri.bindFree 1 rfl (Tri.bindFree 1 rfl (Tri.lastFree 0 rfl)))

theorem Tri.bnMain {h : Ptr} {axis v : Int} (hv : Sees n m0 h axis v) (sc bi me va : Ptr) (eps : BitVec 64) {t : Ptr} (ht : t.New n) :
    Tri n m0 (Own k n L) (bnMain h axis sc bi me va eps t) (PostS k n L) := by
  unfold Aitisa.bnMain
  refine Tri.bindQ (Quiet.tNdim _) fun _ _ => ?_
  refine Tri.ite (fun _ => ?_) fun _ => Tri.ite (fun _ => ?_) fun _ => Tri.endF (by decide) (List.Sublist.refl _)
  · refine Tri.bindStp (Tri.bnDenom _ _ _) (fun d => ?_) fun st hs => Tri.endF hs (List.Sublist.refl _)
    refine Tri.ex fun R => Tri.and fun hR => ?_
    subst hR
    refine Tri.bindStep (Tri.bnPlain _ _ _ _ _ ht) (fun _ => ?_) fun st hs => ?_
    · exact Tri.bindDestroy 0 rfl Tri.endS
    · exact Tri.bindDestroy 0 rfl (Tri.endF hs (List.Sublist.refl _))
  · refine Tri.bindStp (Tri.bnParams hv _ _ _ _ _) (fun A => ?_) fun st hs => Tri.endF hs (List.Sublist.refl _)
    refine Tri.ex fun F => Tri.and fun hF => ?_
    obtain ⟨hA, hl⟩ := hF
    refine Tri.bindStep (Tri.bnChannels _ _ _ ht) (fun _ => ?_) fun st hs => ?_
    · exact Tri.bind (Tri.bnEnd hv hA hl) fun _ => Tri.endS
    · exact Tri.bind (Tri.bnEnd hv hA hl) fun _ => Tri.endF hs (List.Sublist.refl _)

theorem Op.bnCreate (h out : Ptr) : Op (bnCreate h out) := by
  refine Op.of fun n m0 => ?_
  unfold Aitisa.bnCreate
  own
own_add Op.bnCreate

theorem Op.batchNorm (h : Ptr) (axis : Int) (sc bi me va : Ptr) (eps : BitVec 64) (out : Ptr) : Op (batchNorm h axis sc bi me va eps out) := by
  refine Op.of fun n m0 => ?_
  unfold Aitisa.batchNorm
  refine Tri.bind (Tri.bnCheckSees _ _ _ _ _ _ _) fun st => Tri.and fun hv => ?_
  refine Tri.ite (fun hs => Tri.fail hs) fun hs => ?_
  obtain ⟨v, hv⟩ := hv (Classical.not_not.1 hs)
  refine Tri.bindOp (Op.bnCreate _ _) (fun R hR => ?_) fun st p h => ?_
  · simp only [ne_eq, not_true_eq_false, if_false]
    exact Tri.retPost (Tri.bnMain hv _ _ _ _ _ hR)
  · simp only [ne_eq, h, not_false_eq_true, if_true]
    exact Tri.fail h

end Aitisa
