import Verif.Spec.History
import Verif.Props.Frame

/-!
# C47: histories return all memory
-/

namespace Aitisa

variable {n : Nat} {E : Env} {m m' m0 : Mem} {k : Bool} {L : List Tok}

/-- The tokens of the held tensors. -/
def held (Rs : List Foot) : List Tok := Rs.map .ten

/-- After a call of a program that holds the tensors `Rs`. -/
def Kept (n : Nat) (r : Status × List Ptr) (m : Mem) : Prop :=
  r.1 = .success → ∃ Rs : List Foot, r.2 = Rs.map Foot.h ∧ Own true n (held Rs) m

theorem map_eraseIdx' {α β : Type} (f : α → β) (l : List α) : ∀ i, (l.map f).eraseIdx i = (l.eraseIdx i).map f := by
  induction l with
  | nil => intro i; rfl
  | cons a l ih =>
    intro i
    cases i with
    | zero => rfl
    | succ i => simp [ih]

theorem held_get {Rs : List Foot} {i : Nat} {p : Ptr} (h : (Rs.map Foot.h)[i]? = some p) : ∃ R, Rs[i]? = some R ∧ p = R.h := by
  rw [List.getElem?_map] at h
  cases e : Rs[i]? with
  | none => simp [e] at h
  | some R => simp only [e, Option.map_some, Option.some.injEq] at h; exact ⟨R, rfl, h.symm⟩

theorem Tri.castKept (h : Ptr) (dt : DType) (Rs : List Foot) :
    Tri n m0 (Own true n (held Rs)) (Act.run (Rs.map Foot.h) (.cast h dt)) (Kept n) := by
  intro E m r m' s ag o e
  simp only [Act.run] at e
  rw [run_bind] at e
  cases hc : Aitisa.cast h dt .null E m with
  | ok a m1 =>
    obtain ⟨st, p⟩ := a
    rw [hc] at e
    cases e
    have op : Op (fun E m => match Aitisa.cast h dt .null E m with
        | .ok (st, p) m' => if st = .success ∧ p = .null then .ok (.notSupported, p) m' else .ok (st, p) m'
        | r => r) := by
      intro E m st p m' wf e
      cases hc : Aitisa.cast h dt .null E m with
      | ok a m1 =>
        obtain ⟨st1, p1⟩ := a
        simp only [hc] at e
        obtain ⟨s, ag, q, i⟩ := Tri.cast (n := m.next) (m0 := m) h dt .null E m _ m1 (Sep.self wf) (fun _ _ => rfl) (Own.self wf true) hc
        split at e
        · next hn =>
          cases e
          exact ⟨s, ag, fun h => (by cases h), fun L hL => (by simp only [i L hL]; rw [if_pos hn])⟩
        · next hn =>
          cases e
          refine ⟨s, ag, fun hs => ?_, fun L hL => (by simp only [i L hL]; rw [if_neg hn])⟩
          rcases q with ⟨-, h, -⟩ | q
          · exact (hn ⟨hs, h⟩).elim
          · unfold Post at q
            rw [if_pos hs] at q
            exact q
      | ub u => simp only [hc] at e; cases e
      | abort => simp only [hc] at e; cases e
      | fuel => simp only [hc] at e; cases e
    have sim : Sim n (Act.run (Rs.map Foot.h) (.cast h dt)) E m (st, if st = .success ∧ p ≠ .null then p :: Rs.map Foot.h else Rs.map Foot.h) m' := by
      obtain ⟨-, -, -, i⟩ := Tri.cast (n := m.next) (m0 := m) h dt .null E m _ m' (Sep.self s.wf) (fun _ _ => rfl) (Own.self s.wf true) hc
      intro L hL
      simp only [Act.run]
      rw [run_bind, i L fun b hb => hL b (Nat.le_trans s.le hb)]
      rfl
    by_cases hn : st = .success ∧ p = .null
    · obtain ⟨rfl, rfl⟩ := hn
      obtain ⟨s1, ag1, q, -⟩ := Tri.cast (n := m.next) (m0 := m) h dt .null E m _ m' (Sep.self s.wf) (fun _ _ => rfl) (Own.self s.wf true) hc
      have o1 : Own true m.next [] m' := by
        rcases q with ⟨-, -, o⟩ | q
        · exact o
        · unfold Post at q
          rw [if_pos rfl] at q
          obtain ⟨R, h, -⟩ := q
          cases h
      refine ⟨⟨s1.wf, Nat.le_trans s.le s1.le, fun b x hb hx => ?_⟩, fun b hb => ?_, fun _ => ⟨Rs, by simp, ?_⟩, sim⟩
      · by_cases hlt : b < m.next
        · rw [ag1 b hlt] at hx; exact s.new b x hb hx
        · exact (s1.new b x (Nat.le_of_not_lt hlt) hx).mono s.le
      · rw [ag1 b (Nat.lt_of_lt_of_le hb s.le)]; exact ag b hb
      · refine ⟨fun y hy => (o.ok y hy).keep fun b hb => .inl (ag1 b (o.lt s (List.mem_flatMap.2 ⟨y, hy, hb⟩))), o.nodup, o.fresh,
          fun hk b hb hl => ?_⟩
        by_cases hlt : b < m.next
        · rw [ag1 b hlt] at hl; exact o.live hk b hb hl
        · have := o1.live rfl b (Nat.le_of_not_lt hlt) hl
          simp [tokBlocks] at this
    · obtain ⟨s1, ag1, q, -⟩ := op.tri (n := n) (m0 := m0) (k := true) (L := held Rs) E m (st, p) m' s ag o (by
        simp only [hc]; rw [if_neg hn])
      refine ⟨s1, ag1, fun hs => ?_, sim⟩
      have hs : st = .success := hs
      subst hs
      unfold Post at q
      rw [if_pos rfl] at q
      obtain ⟨R, hp, oR⟩ := q
      have hp : p = R.h := hp
      subst hp
      exact ⟨R :: Rs, by simp [Foot.h], oR⟩
  | ub u => rw [hc] at e; cases e
  | abort => rw [hc] at e; cases e
  | fuel => rw [hc] at e; cases e

theorem Tri.act (a : Act) (Rs : List Foot) : Tri n m0 (Own true n (held Rs)) (a.run (Rs.map Foot.h)) (Kept n) := by
  cases a with
  | call c =>
    refine Tri.bindPost (c.op .indet).tri (fun R _ => ?_) fun st p hst => ?_
    · exact Tri.pure fun m o _ => ⟨R :: Rs, by simp, o⟩
    · exact Tri.pure fun m o h => (hst h).elim
  | cast h dt => exact Tri.castKept h dt Rs
  | setItem i idx v =>
    simp only [Act.run]
    cases hi : (Rs.map Foot.h)[i]? with
    | none => exact Tri.ub _
    | some p =>
      obtain ⟨R, hR, rfl⟩ := held_get hi
      refine Tri.have (F := R.h.New n) (fun m o => o.ten_new (List.mem_map.2 ⟨R, List.mem_of_getElem? hR, rfl⟩)) fun hn => ?_
      refine Tri.bindQ (Quiet.setItem hn idx v) fun _ _ => ?_
      exact Tri.pure fun m o _ => ⟨Rs, rfl, o⟩
  | destroy i =>
    simp only [Act.run]
    cases hi : (Rs.map Foot.h)[i]? with
    | none => exact Tri.ub _
    | some p =>
      obtain ⟨R, hR, rfl⟩ := held_get hi
      refine Tri.bindDestroy i (by simp [held, hR]) ?_
      exact Tri.pure fun m o _ => ⟨Rs.eraseIdx i, map_eraseIdx' _ _ _, by simpa [held, map_eraseIdx'] using o⟩

theorem Tri.runAll (as : List Act) : ∀ Rs : List Foot, Tri n m0 (Own true n (held Rs)) (Aitisa.runAll as (Rs.map Foot.h)) (Kept n) := by
  induction as with
  | nil => exact fun Rs => Tri.pure fun m o _ => ⟨Rs, rfl, o⟩
  | cons a as ih =>
    intro Rs
    refine Tri.bind (Tri.act a Rs) fun r => ?_
    obtain ⟨st, hs⟩ := r
    refine Tri.ite (fun h => ?_) fun h => Tri.pure fun m _ h' => (h h').elim
    subst h
    intro E m r m' s ag q e
    obtain ⟨Rs', rfl, o⟩ := q rfl
    exact ih Rs' E m r m' s ag o e

theorem destroyAll_own (Rs : List Foot) : ∀ {m : Mem}, Sep n m → (∀ b, b < n → m.blk b = m0.blk b) → Own true n (held Rs) m →
    ∃ m', destroyAll (Rs.map Foot.h) E m = .ok () m' ∧ Own true n [] m' ∧ ∀ b, b < n → m'.blk b = m0.blk b := by
  induction Rs with
  | nil => exact fun _ ag o => ⟨_, rfl, o, ag⟩
  | cons R Rs ih =>
    intro m s ag o
    obtain ⟨m1, e1, -⟩ := destroy_own (E := E) (o.ok (.ten R) List.mem_cons_self) (List.nodup_append.1 o.nodup).1
    obtain ⟨s1, ag1, ⟨-, o1⟩, -⟩ := Tri.destroy (k := true) (L := held Rs) E m _ m1 s ag o e1
    obtain ⟨m', e', o', ag'⟩ := ih s1 ag1 o1
    refine ⟨m', ?_, o', ag'⟩
    simp only [List.map_cons, destroyAll]
    rw [run_bind, e1]
    exact e'

/-- C47. Any program, starting with any memory, calling operators on any arguments: if every call succeeded, then destroying the
handles it still holds is possible and leaves memory as it was before the program. -/
theorem C47_histories {as : List Act} {hs : List Ptr} (wf : m0.WF) (h : runAll as [] E m0 = .ok (.success, hs) m) :
    ∃ m', destroyAll hs E m = .ok () m' ∧ ∀ b, m'.blk b = m0.blk b := by
  obtain ⟨s, ag, q, -⟩ := Tri.runAll (n := m0.next) (m0 := m0) as [] E m0 _ m (Sep.self wf) (fun _ _ => rfl) (Own.self wf true) h
  obtain ⟨Rs, e, o⟩ := q rfl
  have e : hs = Rs.map Foot.h := e
  subst e
  obtain ⟨m', e', o', ag'⟩ := destroyAll_own (E := E) Rs s ag o
  refine ⟨m', e', fun b => ?_⟩
  by_cases hb : b < m0.next
  · exact ag' b hb
  · rw [wf b (Nat.le_of_not_lt hb)]
    refine Classical.not_not.1 fun hn => ?_
    have := o'.live rfl b (Nat.le_of_not_lt hb) hn
    simp [tokBlocks] at this

/-- C47, from empty memory: no allocation remains. -/
theorem C47_empty {as : List Act} {hs : List Ptr} (h : runAll as [] E Mem.empty = .ok (.success, hs) m) :
    ∃ m', destroyAll hs E m = .ok () m' ∧ ∀ b, m'.blk b = none := by
  obtain ⟨m', e, h⟩ := C47_histories Mem.empty_wf h
  exact ⟨m', e, fun b => by rw [h b]; rfl⟩

/-- C47, the handles held at the end lead to different tensors. -/
theorem C47_distinct {as : List Act} {hs : List Ptr} (wf : m0.WF) (h : runAll as [] E m0 = .ok (.success, hs) m) : hs.Nodup := by
  obtain ⟨s, ag, q, -⟩ := Tri.runAll (n := m0.next) (m0 := m0) as [] E m0 _ m (Sep.self wf) (fun _ _ => rfl) (Own.self wf true) h
  obtain ⟨Rs, e, o⟩ := q rfl
  have e : hs = Rs.map Foot.h := e
  have := o.nodup
  clear h s ag q o wf
  subst e
  induction Rs with
  | nil => exact List.nodup_nil
  | cons R Rs ih =>
    have hn : (R.list ++ tokBlocks (held Rs)).Nodup := this
    obtain ⟨-, h2, h3⟩ := List.nodup_append.1 hn
    refine List.nodup_cons.2 ⟨fun hm => ?_, ih h2 rfl⟩
    obtain ⟨R', hR', e⟩ := List.mem_map.1 hm
    have e : R'.t = R.t := by simpa [Foot.h] using e
    refine h3 R.t (by simp [Foot.list]) R.t (List.mem_flatMap.2 ⟨.ten R', List.mem_map.2 ⟨R', hR', rfl⟩, ?_⟩) rfl
    simp [Tok.blocks, Foot.list, ← e]

/-- A program: two tensors, their sum, an element written, one destroyed, a conversion, a conversion to the same type, a
reshape. -/
def exProg : List Act :=
  [.call (.full Code.i32.dtype ⟨DEVICE_CPU, 0⟩ [some 2, some 3] 2 (4)), .call (.duplicate (.blk 0)),
   .call (.binary .add (.blk 0) (.blk 10)), .setItem 0 2 [some 9, some 0, some 0, some 0], .destroy 1,
   .cast (.blk 18) Code.f64.dtype, .cast (.blk 18) Code.i32.dtype, .call (.reshape (.blk 18) [some 6] 1)]

/-- It succeeds and ends holding four handles. -/
def exProgOk (r : Res (Status × List Ptr)) : Bool :=
  match r with
  | .ok (.success, hs) _ => hs.length == 4
  | _ => false

example : exProgOk (runAll exProg [] okEnv Mem.empty) = true := by decide +kernel

end Aitisa
