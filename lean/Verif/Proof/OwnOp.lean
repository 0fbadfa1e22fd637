import Verif.Proof.Own

/-!
# Operators as owners
-/

namespace Aitisa

variable {α β σ ρ : Type} {n : Nat} {E : Env} {m m' m0 : Mem} {k : Bool} {L : List Tok}

/-- After a call that gives a status and a tensor. -/
def Post (k : Bool) (n : Nat) (L : List Tok) (r : Status × Ptr) (m : Mem) : Prop :=
  if r.1 = .success then ∃ R : Foot, r.2 = R.h ∧ Own k n (.ten R :: L) m else Own false n L m

/-- After a call that gives a status. -/
def PostS (k : Bool) (n : Nat) (L : List Tok) (st : Status) (m : Mem) : Prop :=
  Own (k && decide (st = .success)) n L m

/-- A call that changes no existing memory and on success leaves exactly the returned tensor allocated. -/
def Op (x : M (Status × Ptr)) : Prop :=
  ∀ E m st p m', m.WF → x E m = .ok (st, p) m' → Sep m.next m' ∧ (∀ b, b < m.next → m'.blk b = m.blk b) ∧
    (st = .success → ∃ R : Foot, p = R.h ∧ Own true m.next [.ten R] m') ∧ Sim m.next x E m (st, p) m'

theorem Sep.self (wf : m.WF) : Sep m.next m := ⟨wf, Nat.le_refl _, fun b x hb hx => by rw [wf b hb] at hx; cases hx⟩

theorem Own.self (wf : m.WF) (k : Bool) : Own k m.next [] m :=
  ⟨by simp, by simp [tokBlocks], by simp [tokBlocks], fun _ b hb hl => absurd (wf b hb) hl⟩

theorem Op.of {x : M (Status × Ptr)} (h : ∀ n m0, Tri n m0 (Own true n []) x (Post true n [])) : Op x := by
  intro E m st p m' wf e
  obtain ⟨s, ag, q, i⟩ := h m.next m E m _ m' (Sep.self wf) (fun _ _ => rfl) (Own.self wf true) e
  refine ⟨s, ag, fun hs => ?_, i⟩
  unfold Post at q
  rw [if_pos hs] at q
  exact q

theorem Ptr.New.mono {n n' : Nat} (h : n ≤ n') {p : Ptr} (hp : p.New n') : p.New n := by
  cases p with
  | blk b => exact Nat.le_trans h hp
  | null => trivial
  | indet => trivial

theorem Body.New.mono {n n' : Nat} (h : n ≤ n') {b : Body} (hb : b.New n') : b.New n := by
  cases b with
  | tensor t => exact ⟨hb.1.mono h, hb.2.1.mono h, hb.2.2.mono h⟩
  | storage s => exact Ptr.New.mono h hb
  | i64s _ => trivial
  | bytes _ => trivial
  | scratch _ => trivial

theorem Op.tri {x : M (Status × Ptr)} (h : Op x) : Tri n m0 (Own k n L) x (Post k n L) := by
  intro E m r m' s ag o e
  obtain ⟨st, p⟩ := r
  obtain ⟨s', ag', q, sim⟩ := h E m st p m' s.wf e
  have keep : ∀ y ∈ L, Tok.Ok m' y := fun y hy => (o.ok y hy).keep fun b hb => .inl
    (ag' b (o.lt s (List.mem_flatMap.2 ⟨y, hy, hb⟩)))
  refine ⟨⟨s'.wf, Nat.le_trans s.le s'.le, fun b x hb hx => ?_⟩, fun b hb => ?_, ?_,
    fun L hL => sim L fun b hb => hL b (Nat.le_trans s.le hb)⟩
  · by_cases hlt : b < m.next
    · rw [ag' b hlt] at hx; exact s.new b x hb hx
    · exact (s'.new b x (Nat.le_of_not_lt hlt) hx).mono s.le
  · rw [ag' b (Nat.lt_of_lt_of_le hb s.le)]; exact ag b hb
  · unfold Post
    split
    · next hs =>
      obtain ⟨R, hp, oR⟩ := q hs
      refine ⟨R, hp, ⟨fun y hy => ?_, ?_, fun b hb => ?_, fun hk b hb hl => ?_⟩⟩
      · rcases List.mem_cons.1 hy with rfl | hy
        · exact oR.ok _ List.mem_cons_self
        · exact keep y hy
      · rw [tokBlocks_cons]
        refine List.nodup_append.2 ⟨?_, o.nodup, ?_⟩
        · exact (List.nodup_append.1 oR.nodup).1
        · intro a ha b hb e
          have := oR.fresh a (List.mem_append_left _ ha)
          have := o.lt s hb
          omega
      · rcases List.mem_append.1 hb with hb | hb
        · exact Nat.le_trans s.le (oR.fresh b (List.mem_append_left _ hb))
        · exact o.fresh b hb
      · by_cases hlt : b < m.next
        · rw [ag' b hlt] at hl
          exact List.mem_append_right _ (o.live hk b hb hl)
        · have := oR.live rfl b (Nat.le_of_not_lt hlt) hl
          rw [tokBlocks_cons] at this
          rcases List.mem_append.1 this with h | h
          · exact List.mem_append_left _ h
          · cases h
    · exact ⟨keep, o.nodup, o.fresh, fun h => by cases h⟩

theorem Tri.bindPost {x : M (Status × Ptr)} {f : Status × Ptr → M β} {Q : β → Mem → Prop} (hx : Tri n m0 (Own k n L) x (Post k n L))
    (hs : ∀ R : Foot, R.h.New n → Tri n m0 (Own k n (.ten R :: L)) (f (.success, R.h)) Q)
    (hf : ∀ st p, st ≠ .success → Tri n m0 (Own false n L) (f (st, p)) Q) : Tri n m0 (Own k n L) (x >>= f) Q := by
  refine Tri.bind hx fun r => ?_
  obtain ⟨st, p⟩ := r
  by_cases h : st = .success
  · subst h
    intro E m a m' s ag o e
    unfold Post at o
    rw [if_pos rfl] at o
    obtain ⟨R, hp, o⟩ := o
    simp only at hp; subst hp
    exact hs R (o.ten_new List.mem_cons_self) E m a m' s ag o e
  · refine (hf st p h).pre fun m o => ?_
    unfold Post at o; rw [if_neg h] at o; exact o

theorem Tri.bindOp {x : M (Status × Ptr)} {f : Status × Ptr → M β} {Q : β → Mem → Prop} (hx : Op x)
    (hs : ∀ R : Foot, R.h.New n → Tri n m0 (Own k n (.ten R :: L)) (f (.success, R.h)) Q)
    (hf : ∀ st p, st ≠ .success → Tri n m0 (Own false n L) (f (st, p)) Q) : Tri n m0 (Own k n L) (x >>= f) Q :=
  Tri.bindPost hx.tri hs hf

theorem Tri.bindS {x : M Status} {f : Status → M β} {Q : β → Mem → Prop} (hx : Tri n m0 (Own k n L) x (PostS k n L))
    (hs : Tri n m0 (Own k n L) (f .success) Q)
    (hf : ∀ st, st ≠ .success → Tri n m0 (Own false n L) (f st) Q) : Tri n m0 (Own k n L) (x >>= f) Q := by
  refine Tri.bind hx fun st => ?_
  by_cases h : st = .success
  · subst h
    refine hs.pre fun m o => ?_
    unfold PostS at o; simpa using o
  · refine (hf st h).pre fun m o => ?_
    unfold PostS at o; simpa [h] using o

/-- A quiet computation of a status. -/
theorem Quiet.postS {x : M Status} {F : Status → Prop} (h : Quiet n x F) : Tri n m0 (Own k n L) x (PostS k n L) :=
  (Tri.quiet h).post fun st m o => by
    unfold PostS
    by_cases hs : st = .success
    · simpa [hs] using o.2
    · simpa [hs] using o.2.leak

/-- Return of a failure. -/
theorem Tri.fail {st : Status} {p : Ptr} (h : st ≠ .success) : Tri n m0 (Own k n L) (Pure.pure (st, p) : M (Status × Ptr)) (Post true n []) :=
  Tri.pure fun m _ => by unfold Post; rw [if_neg h]; exact Own.nil

/-- Failure, with some of the tokens forgotten. -/
theorem Tri.failSub {st : Status} {p : Ptr} {k' : Bool} {L' : List Tok} (h : st ≠ .success) (hL : L.Sublist L') :
    Tri n m0 (Own k' n L') (Pure.pure (st, p) : M (Status × Ptr)) (Post k n L) :=
  Tri.pure fun m o => by unfold Post; rw [if_neg h]; exact o.sub hL

/-- Return of the tensor. -/
theorem Tri.ret {R : Foot} : Tri n m0 (Own k n (.ten R :: L)) (Pure.pure (.success, R.h) : M (Status × Ptr)) (Post k n L) :=
  Tri.pure fun m o => by unfold Post; rw [if_pos rfl]; exact ⟨R, rfl, o⟩

/-- Return of the tensor with a status. -/
theorem Tri.retS {R : Foot} {st : Status} :
    Tri n m0 (Own (k && decide (st = .success)) n (.ten R :: L)) (Pure.pure (st, R.h) : M (Status × Ptr)) (Post k n L) :=
  Tri.pure fun m o => by
    unfold Post
    split
    · next h => exact ⟨R, rfl, by simpa [show st = .success from h] using o⟩
    · exact o.sub (List.sublist_cons_self _ _)

theorem Tri.retAny {R : Foot} {st : Status} : Tri n m0 (Own k n (.ten R :: L)) (Pure.pure (st, R.h) : M (Status × Ptr)) (Post k n L) :=
  Tri.pure fun m o => by
    unfold Post
    split
    · exact ⟨R, rfl, o⟩
    · exact o.sub (List.sublist_cons_self _ _)

/-- Return of a status. -/
theorem Tri.endS {st : Status} : Tri n m0 (Own k n L) (Pure.pure st : M Status) (PostS k n L) :=
  Tri.pure fun m o => by
    unfold PostS
    by_cases h : st = .success
    · simpa [h] using o
    · simpa [h] using o.leak

/-- Return of a failure from a function that gives a status. -/
theorem Tri.endF {st : Status} {L' : List Tok} {k' : Bool} (h : st ≠ .success) (hL : L.Sublist L') :
    Tri n m0 (Own k' n L') (Pure.pure st : M Status) (PostS k n L) :=
  Tri.pure fun m o => by
    unfold PostS
    simpa [h] using o.sub hL

theorem Tri.bindCell {dt : DType} {f : Ptr → M β} {Q : β → Mem → Prop}
    (hf : ∀ p, p.New n → Tri n m0 (Own k n (.cell p :: L)) (f p) Q) : Tri n m0 (Own k n L) (cellAlloc dt >>= f) Q :=
  Tri.bind (Tri.cMalloc _ (by trivial)) fun p => Tri.and (hf p)

/-- Quiet computation of the status, then return of the tensor. -/
theorem Tri.retPost {R : Foot} {x : M Status} (h : Tri n m0 (Own k n (.ten R :: L)) x (PostS k n (.ten R :: L))) :
    Tri n m0 (Own k n (.ten R :: L)) (x >>= fun st => Pure.pure (st, R.h) : M (Status × Ptr)) (Post k n L) :=
  Tri.bind h fun _ => Tri.retS

/-! ## Creation -/

theorem Tri.putBody {p : Ptr} {b : Body} (hb : b.New n) (hp : Tok.raw p ∈ L) {G : Mem → Prop} (hG : ∀ m c y, p = .blk c → Own k n L m → G m → G (m.set c y)) :
    Tri n m0 (fun m => Own k n L m ∧ G m) (putBody p b) fun _ m => (∃ c, p = .blk c ∧ m.blk c = some ⟨.own, b⟩) ∧ Own k n L m ∧ G m := by
  intro E m a m' s ag ⟨o, g⟩ e
  have hn := o.raw_new hp
  unfold Aitisa.putBody at e
  cases p with
  | null => cases e
  | indet => cases e
  | blk c =>
    obtain ⟨x, hx⟩ := o.ok _ hp
    simp only [hx] at e
    rw [if_neg (by simp)] at e
    cases e
    have hset : (m.set c (some ⟨.own, b⟩)).blk c = some ⟨.own, b⟩ := by simp [Mem.set]
    have hne : ∀ d, d ≠ c → (m.set c (some ⟨.own, b⟩)).blk d = m.blk d := fun d hd => upd_ne _ _ hd
    refine ⟨s.put (by simp [hx]) hb, fun d hd => (hne d (by have : n ≤ c := hn; omega)).trans (ag d hd), ⟨⟨c, rfl, hset⟩,
      ⟨fun y hy => ?_, o.nodup, o.fresh, fun hk d hd hl => ?_⟩, hG m c _ rfl o g⟩, fun L hL => ?_⟩
    · by_cases hc : c ∈ y.blocks
      · -- the token is the array itself
        have : y = .raw (.blk c) := by
          obtain ⟨A, B, rfl⟩ := List.append_of_mem hp
          have nd := o.nodup
          rw [tokBlocks, List.flatMap_append, List.flatMap_cons, List.nodup_append] at nd
          obtain ⟨n1, n2, n3⟩ := nd
          rcases List.mem_append.1 hy with h | h
          · exact absurd rfl (n3 c (List.mem_flatMap.2 ⟨y, h, hc⟩) c (by simp [Tok.blocks]))
          · rcases List.mem_cons.1 h with h | h
            · exact h
            · rw [List.nodup_append] at n2
              exact absurd rfl (n2.2.2 c (by simp [Tok.blocks]) c (List.mem_flatMap.2 ⟨y, h, hc⟩))
        subst this
        exact ⟨b, hset⟩
      · exact (o.ok y hy).keep fun d hd => .inl (hne d fun h => hc (h ▸ hd))
    · refine o.live hk d hd ?_
      by_cases h : d = c
      · subst h; simp [hx]
      · rwa [hne d h] at hl
    · unfold Aitisa.putBody
      simp only [relabel_some hx, hL c hn, Option.getD_none]
      rw [if_neg (by simp), ← relabel_set, hL c hn]; rfl

/-- The optional block of a pointer. -/
def ptrOpt : Ptr → Option Nat
  | .blk b => some b
  | _ => none

theorem Own.optPtr {p : Ptr} (h : Own k n L m) (hp : Tok.raw p ∈ L) : p = optPtr (ptrOpt p) := by
  have := h.ok _ hp
  cases p with
  | blk b => rfl
  | null => rfl
  | indet => exact this.elim

theorem Tri.true_pre {x : M α} {Q : α → Mem → Prop} (h : Tri n m0 (Own k n L) x Q) : Tri n m0 (fun m => Own k n L m ∧ True) x Q :=
  h.pre fun _ h => h.1

theorem Tri.putRaw {p : Ptr} {b : Body} (hb : b.New n) (hp : Tok.raw p ∈ L) {f : Unit → M β} {Q : β → Mem → Prop}
    (hf : Tri n m0 (Own k n L) (f ()) Q) : Tri n m0 (Own k n L) (Aitisa.putBody p b >>= f) Q :=
  (Tri.bind (Tri.putBody hb hp (G := fun _ => True) fun _ _ _ _ _ _ => trivial) fun _ => hf.pre fun _ h => h.2.1).pre fun _ h => ⟨h, trivial⟩

/-- A value computed in one of two ways, as `do` notation writes it. -/
theorem Tri.jp {c : Prop} [Decidable c] {x y : M α} {J : α → M β} {P : Mem → Prop} {R : α → Mem → Prop} {Q : β → Mem → Prop}
    (hx : c → Tri n m0 P x R) (hy : ¬ c → Tri n m0 P y R) (hJ : ∀ a, Tri n m0 (R a) (J a) Q) :
    Tri n m0 P (have j := J; if c then x >>= j else y >>= j) Q :=
  Tri.ite (fun h => Tri.bind (hx h) hJ) fun h => Tri.bind (hy h) hJ

theorem Tri.createDefaultLayout (ndim : Int) : Tri n m0 (Own k n L) (createDefaultLayout .dense ndim .indet) fun r m =>
    r.2.New n ∧ if r.1 = .success then Own k n (.raw r.2 :: L) m else Own false n L m := by
  unfold Aitisa.createDefaultLayout
  refine Tri.ite (fun h => absurd rfl h) fun _ => ?_
  refine Tri.jp (R := fun p m => p.New n ∧ Own k n (.raw p :: L) m) (fun _ => Tri.pure fun _ o => ⟨trivial, o.miss⟩)
    (fun _ => Tri.rawAlloc _ (by trivial)) fun p => Tri.and fun hp => ?_
  refine Tri.ite (fun _ => Tri.pure fun _ o => ⟨hp, ?_⟩) fun _ => ?_
  · rw [if_neg (by simp)]; exact o.sub (List.sublist_cons_self _ _)
  refine Tri.bindQ (F := fun _ => True) (by quiet) fun _ _ => ?_
  exact Tri.pure fun _ o => ⟨hp, by rw [if_pos rfl]; exact o⟩

theorem Tri.createShape (dims : Arr) (ndim : Int) : Tri n m0 (Own k n L) (createShape .dense dims ndim) fun r m =>
    r.2.1.New n ∧ r.2.2.New n ∧ if r.1 = .success then Own k n (.raw r.2.2 :: .raw r.2.1 :: L) m else Own false n L m := by
  unfold Aitisa.createShape
  refine Tri.jp (R := fun p m => p.New n ∧ Own k n (.raw p :: L) m) (fun _ => Tri.pure fun _ o => ⟨trivial, o.miss⟩)
    (fun _ => Tri.rawAlloc _ (by trivial)) fun p => Tri.and fun hp => ?_
  refine Tri.ite (fun _ => Tri.pure fun _ o => ⟨hp, trivial, ?_⟩) fun _ => ?_
  · rw [if_neg (by simp)]; exact o.sub (List.sublist_cons_self _ _)
  refine Tri.bindQ (F := fun _ => True) (by quiet) fun _ _ => ?_
  refine Tri.bind (Tri.createDefaultLayout ndim) fun r => Tri.and fun hr => ?_
  obtain ⟨st, l⟩ := r
  refine Tri.ite (fun h => Tri.pure fun m o => ⟨hp, hr, ?_⟩) fun h => Tri.pure fun m o => ⟨hp, hr, ?_⟩
  · rw [if_neg h]
    rw [if_neg h] at o; exact o.sub (List.sublist_cons_self _ _)
  · rw [if_pos rfl]
    rw [if_pos (show st = .success by simpa using h)] at o; exact o

theorem Tri.createStorage (dt : DType) (dev : Device) (size : Int) : Tri n m0 (Own k n L) (createStorage dt dev size .null .indet) fun r m =>
    r.2.New n ∧ if r.1 = .success then ∃ sb pb x, r.2 = .blk sb ∧ m.blk sb = some ⟨.own, .storage ⟨dt, dev, x, .blk pb⟩⟩ ∧
      Own k n (.raw (.blk pb) :: .raw (.blk sb) :: L) m else Own false n L m := by
  unfold Aitisa.createStorage
  refine Tri.bind (Tri.rawAlloc _ (by trivial)) fun s => Tri.and fun hs => ?_
  refine Tri.ite (fun _ => Tri.pure fun _ o => ⟨trivial, ?_⟩) fun h0 => ?_
  · rw [if_neg (by simp)]; exact o.sub (List.sublist_cons_self _ _)
  refine Tri.ite (fun h => absurd rfl h) fun _ => ?_
  refine Tri.bindQ (Quiet.i64 _) fun _ _ => ?_
  refine Tri.bind (Tri.rawAlloc _ (by trivial)) fun p => Tri.and fun hp => ?_
  refine (Tri.bind (Tri.putBody (G := fun _ => True) (by exact hp) (by simp) fun _ _ _ _ _ _ => trivial) fun _ => ?_).pre fun _ h => ⟨h, trivial⟩
  refine Tri.ite (fun _ => Tri.pure fun _ o => ⟨trivial, ?_⟩) fun h1 => Tri.pure fun _ o => ⟨hs, ?_⟩
  · rw [if_neg (by simp)]; exact o.2.1.sub (by simp)
  · rw [if_pos rfl]
    obtain ⟨⟨c, rfl, hc⟩, o, -⟩ := o
    have := o.ok (.raw p) (by simp)
    cases p with
    | blk b => exact ⟨c, b, _, rfl, hc, o⟩
    | null => exact absurd rfl h1
    | indet => exact this.elim

theorem Op.create (dt : DType) (dev : Device) (dims : Arr) (ndim : Int) (len : Nat) (out : Ptr) : Op (create dt dev dims ndim .null len out) := by
  refine Op.of fun n m0 => ?_
  unfold Aitisa.create
  refine Tri.bind (Tri.rawAlloc _ (by exact ⟨trivial, trivial, trivial⟩)) fun t => Tri.and fun ht => ?_
  refine Tri.ite (fun _ => Tri.fail (by simp)) fun h0 => ?_
  refine Tri.bindQ (Quiet.sizeOfDims _ _) fun size _ => ?_
  refine Tri.putRaw (by exact ⟨trivial, trivial, trivial⟩) (by simp) ?_
  refine Tri.jp (R := fun b m => b = false ∧ Own true n [.raw t] m) (fun h => absurd rfl h) (fun _ => Tri.pure fun _ o => ⟨rfl, o⟩)
    fun b => Tri.and fun hb => ?_
  subst hb
  refine Tri.ite (fun h => by cases h) fun _ => ?_
  refine Tri.bind (Tri.createShape dims ndim) fun r => Tri.and fun h1 => Tri.and fun h2 => ?_
  obtain ⟨st, d, l⟩ := r
  by_cases hst : st = .success
  rotate_left
  · simp only [hst, if_false, ne_eq, not_false_eq_true, if_true]
    exact Tri.putRaw (by exact ⟨h1, h2, trivial⟩) (by simp) (Tri.fail hst)
  subst hst
  simp only [if_true, ne_eq, not_true_eq_false, if_false]
  refine Tri.putRaw (by exact ⟨h1, h2, trivial⟩) (by simp) ?_
  refine Tri.bind (Tri.createStorage dt dev size) fun r => Tri.and fun h3 => ?_
  obtain ⟨st, s⟩ := r
  by_cases hst : st = .success
  rotate_left
  · simp only [hst, if_false, ne_eq, not_false_eq_true, if_true]
    exact Tri.fail hst
  subst hst
  simp only [if_true, ne_eq, not_true_eq_false, if_false]
  refine Tri.ex fun sb => Tri.ex fun pb => Tri.ex fun x => Tri.and fun hs => ?_
  subst hs
  refine (Tri.bind (Tri.putBody (p := t) (L := [.raw (.blk pb), .raw (.blk sb), .raw l, .raw d, .raw t]) (k := true)
    (G := fun m => m.blk sb = some ⟨.own, .storage ⟨dt, dev, x, .blk pb⟩⟩)
    (by exact ⟨h1, h2, h3⟩) (by simp) fun m c y hc o g => ?_) fun _ => ?_).pre fun _ h => ⟨h.2, h.1⟩
  · rw [show (m.set c y).blk sb = m.blk sb from upd_ne _ _ ?_]
    · exact g
    · rintro rfl
      subst hc
      have := o.nodup
      cases l <;> cases d <;> simp [tokBlocks, Tok.blocks] at this
  refine Tri.pure fun m ⟨⟨c, hc, htb⟩, o, g⟩ => ?_
  subst hc
  unfold Post
  rw [if_pos rfl]
  have ed := o.optPtr (p := d) (by simp)
  have el := o.optPtr (p := l) (by simp)
  have eb : ((Tok.ten ⟨c, sb, pb, ptrOpt d, ptrOpt l⟩).blocks).Perm (tokBlocks [.raw (.blk pb), .raw (.blk sb), .raw l, .raw d, .raw (.blk c)]) := by
    have : tokBlocks [.raw (.blk pb), .raw (.blk sb), .raw l, .raw d, .raw (.blk c)] = pb :: sb :: ((ptrOpt l).toList ++ ((ptrOpt d).toList ++ [c])) := by
      cases d <;> cases l <;> rfl
    rw [this, Tok.blocks, Foot.list]
    refine List.Perm.trans ?_ (List.perm_append_comm (l₁ := c :: sb :: [pb]) (l₂ := (ptrOpt d).toList ++ (ptrOpt l).toList)).symm.symm |>.trans ?_
    · exact List.Perm.refl _
    · have p1 : ((ptrOpt d).toList ++ (ptrOpt l).toList ++ (c :: sb :: [pb])).Perm ((ptrOpt l).toList ++ (ptrOpt d).toList ++ ([c] ++ [sb, pb])) :=
        List.Perm.append List.perm_append_comm (List.Perm.refl _)
      refine p1.trans ?_
      rw [← List.append_assoc]
      refine List.perm_append_comm.trans ?_
      refine (List.Perm.swap pb sb _).trans ?_
      simp
  refine ⟨⟨c, sb, pb, ptrOpt d, ptrOpt l⟩, rfl, ⟨fun y hy => ?_, ?_, ?_, ?_⟩⟩
  · rw [List.mem_singleton] at hy; subst hy
    refine ⟨⟨_, htb, ed, el, rfl⟩, ⟨_, g, rfl⟩, o.ok (.raw (.blk pb)) (by simp), fun b hb => ?_, fun b hb => ?_⟩
    · have := o.ok (.raw d) (by simp)
      cases d <;> simp only [ptrOpt, Option.some.injEq, reduceCtorEq] at hb
      subst hb; exact this
    · have := o.ok (.raw l) (by simp)
      cases l <;> simp only [ptrOpt, Option.some.injEq, reduceCtorEq] at hb
      subst hb; exact this
  · have := (eb.nodup_iff).2 o.nodup; simpa [tokBlocks] using this
  · intro b hb; exact o.fresh b (eb.mem_iff.1 (by simpa [tokBlocks] using hb))
  · intro hk b hb hl; have := eb.mem_iff.2 (o.live hk b hb hl); simpa [tokBlocks] using this

end Aitisa
