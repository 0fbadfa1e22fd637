import Verif.Proof.Alloc
import Verif.Props.Core
import Verif.Props.History
import Verif.Props.Matmul

/-!
# C70: programs that install their own allocator
-/

namespace Aitisa

variable {n : Nat} {E : Env} {m m' m0 mm mm0 : Mem} {j k : Nat}

/-! ## Steps -/

/-- Whatever is in memory stays there; only the contents of plain arrays may change. -/
def Stable (m m' : Mem) : Prop := ∀ b, m.blk b ≠ none → m'.blk b = m.blk b ∨
  ∃ h l l', Body.Flat l ∧ Body.Flat l' ∧ m.blk b = some ⟨h, l⟩ ∧ m'.blk b = some ⟨h, l'⟩

theorem Stable.live (h : Stable m m') {b : Nat} (hb : m.blk b ≠ none) : m'.blk b ≠ none := by
  rcases h b hb with e | ⟨_, _, _, _, _, _, e⟩
  · rwa [e]
  · rw [e]; simp

theorem Frame.stable (f : Frame m m') (wf : m.WF) : Stable m m' := fun b hb =>
  .inl (f.same b (Nat.lt_of_not_le fun h => hb (wf b h)))

theorem Stable.ten (h : Stable m m') {R : Foot} (hR : TenOk m R) : TenOk m' R :=
  Tok.Ok.keep (x := .ten R) hR fun b hb => h b (Tok.Ok.live (x := .ten R) hR hb)

theorem TenOk.unique {R R' : Foot} (h : TenOk m R) (h' : TenOk m R') (e : R.t = R'.t) : R = R' := by
  obtain ⟨t, et, e1, e2, e3⟩ := h.tensor
  obtain ⟨t', et', e1', e2', e3'⟩ := h'.tensor
  rw [← e, et] at et'
  cases et'
  obtain ⟨s, es, e4⟩ := h.storage
  obtain ⟨s', es', e4'⟩ := h'.storage
  rw [e3] at e3'
  injection e3' with e3'
  rw [← e3', es] at es'
  cases es'
  rw [e4] at e4'
  injection e4' with e4'
  have hd : R.d = R'.d := by
    rw [e1] at e1'
    cases hd : R.d <;> cases hd' : R'.d <;> simp [hd, hd', optPtr] at e1' ⊢
    exact e1'
  have hl : R.l = R'.l := by
    rw [e2] at e2'
    cases hd : R.l <;> cases hd' : R'.l <;> simp [hd, hd', optPtr] at e2' ⊢
    exact e2'
  obtain ⟨a1, a2, a3, a4, a5⟩ := R
  obtain ⟨b1, b2, b3, b4, b5⟩ := R'
  simp only at e e3' e4' hd hl
  subst e e3' e4' hd hl
  rfl

theorem same_stable (h : Same 0 m m') : Stable m m' := fun b _ => by
  rcases h.blk b with e | ⟨-, e⟩
  · exact .inl e
  · exact .inr e

theorem sep_zero (wf : m.WF) : Sep 0 m where
  wf := wf
  le := Nat.zero_le _
  new b x _ _ := by
    have hp : ∀ p : Ptr, p.New 0 := fun p => by cases p <;> simp [Ptr.New]
    obtain ⟨o, y⟩ := x
    cases y <;> simp [Body.New, hp]

/-- Acts that do not destroy a tensor. -/
def Act.Builds : Act → Prop
  | .destroy _ => False
  | _ => True

theorem Act.stable {a : Act} (ha : a.Builds) {hs : List Ptr} {r : Status × List Ptr} (wf : m.WF) (e : a.run hs E m = .ok r m') :
    Stable m m' ∧ (r.2 = hs ∨ ∃ p, r.2 = p :: hs) := by
  cases a with
  | call c =>
    simp only [Act.run] at e
    rw [run_bind] at e
    cases h : c.run .indet E m with
    | ok x m1 =>
      rw [h] at e; cases e
      obtain ⟨st, p⟩ := x
      refine ⟨(C06_operators c _ E m st p _ wf h).1.stable wf, ?_⟩
      by_cases hst : st = .success
      · exact .inr ⟨p, by simp [hst]⟩
      · exact .inl (by simp [hst])
    | ub u => rw [h] at e; cases e
    | abort => rw [h] at e; cases e
    | fuel => rw [h] at e; cases e
  | cast t dt =>
    simp only [Act.run] at e
    rw [run_bind] at e
    cases h : Aitisa.cast t dt .null E m with
    | ok x m1 =>
      rw [h] at e; cases e
      obtain ⟨st, p⟩ := x
      refine ⟨(C06_cast t .null dt wf h).1.stable wf, ?_⟩
      by_cases hst : st = .success ∧ p ≠ .null
      · exact .inr ⟨p, if_pos hst⟩
      · exact .inl (if_neg hst)
    | ub u => rw [h] at e; cases e
    | abort => rw [h] at e; cases e
    | fuel => rw [h] at e; cases e
  | setItem i idx v =>
    simp only [Act.run] at e
    cases hi : hs[i]? with
    | none => rw [hi] at e; cases e
    | some p =>
      rw [hi] at e
      simp only at e
      rw [run_bind] at e
      cases h : Aitisa.setItem p idx v E m with
      | ok x m1 =>
        rw [h] at e; cases e
        have hp : p.New 0 := by cases p <;> simp [Ptr.New]
        exact ⟨same_stable (Quiet.setItem (n := 0) hp idx v E m _ _ (sep_zero wf) h).1, .inl rfl⟩
      | ub u => rw [h] at e; cases e
      | abort => rw [h] at e; cases e
      | fuel => rw [h] at e; cases e
  | destroy i => exact ha.elim

/-! ## Programs -/

/-- The state `mm` of a program that exchanges the allocator, compared with the state `m` of the same program with one allocator:
they hold the tensors `Rs`, received with the allocators `ks`. -/
structure Mixed (n : Nat) (mm0 m mm : Mem) (Rs : List Foot) (ks : List Nat) : Prop where
  sep : Sep n m
  own : Own true n (held Rs) m
  same : SameContents m mm
  marked : mm.Marked
  len : ks.length = Rs.length
  source : ∀ (i : Nat) (R : Foot) (k : Nat), Rs[i]? = some R → ks[i]? = some k → FromAllocator k mm R.list
  old : ∀ b z, b < n → mm.blk b = some z → ∃ y, mm0.blk b = some ⟨z.heap, y⟩

theorem held_ok {Rs : List Foot} (o : Own true n (held Rs) m) {R : Foot} (h : R ∈ Rs) : TenOk m R :=
  o.ok (.ten R) (List.mem_map.2 ⟨R, h, rfl⟩)

theorem same_feet {Rs Rs' : List Foot} (h : ∀ R ∈ Rs, TenOk m R) (h' : ∀ R ∈ Rs', TenOk m R) (e : Rs'.map Foot.h = Rs.map Foot.h) :
    Rs' = Rs := by
  induction Rs generalizing Rs' with
  | nil => simpa using e
  | cons R Rs ih =>
    cases Rs' with
    | nil => cases e
    | cons R' Rs' =>
      simp only [List.map_cons, List.cons.injEq] at e
      have ht : R'.t = R.t := by simpa [Foot.h] using e.1
      rw [TenOk.unique (h' R' List.mem_cons_self) (h R List.mem_cons_self) ht,
        ih (fun R hR => h R (List.mem_cons_of_mem _ hR)) (fun R hR => h' R (List.mem_cons_of_mem _ hR)) e.2]

theorem own_blocks {R : Foot} (h : TenOk m R) {b : Nat} (hb : b ∈ R.list) : ∃ x, m.blk b = some ⟨.own, x⟩ := by
  obtain ⟨t, et, -⟩ := h.tensor
  obtain ⟨s, es, -⟩ := h.storage
  simp only [Foot.list, List.mem_cons, List.mem_append, Option.mem_toList] at hb
  rcases hb with rfl | rfl | rfl | hb | hb
  · exact ⟨_, et⟩
  · exact ⟨_, es⟩
  · exact h.data
  · exact h.dims b hb
  · exact h.layout b hb

theorem SameContents.live (h : SameContents m m') {b : Nat} (hb : m.blk b ≠ none) : m'.blk b ≠ none := fun hn =>
  hb ((h.none_iff b).1 hn)

/-- Kept blocks keep their origin. -/
theorem kept_source {mm' : Mem} {l : List Nat} (h : FromAllocator k mm l) (hl : ∀ b ∈ l, mm'.blk b ≠ none)
    (ho : ∀ b z, mm'.blk b = some z → b ∈ l → ∃ y, mm.blk b = some ⟨z.heap, y⟩) : FromAllocator k mm' l := by
  intro b hb
  cases e : mm'.blk b with
  | none => exact absurd e (hl b hb)
  | some z =>
    obtain ⟨y, hy⟩ := ho b z e hb
    obtain ⟨x, hx⟩ := h b hb
    rw [hx] at hy
    obtain ⟨zo, zb⟩ := z
    cases hy
    exact ⟨zb, rfl⟩

/-- One call. -/
theorem Mixed.step {Rs : List Foot} {ks : List Nat} (h : Mixed n mm0 m mm Rs ks) (hag : ∀ b, b < n → m.blk b = m0.blk b) (a : Act) {st : Status}
    {hs' : List Ptr} (e : a.run (Rs.map Foot.h) E m = .ok (st, hs') m') (k : Nat) :
    ∃ mm', M.under (a.allocator k ks) (a.run (Rs.map Foot.h)) E mm = .ok (st, hs') mm' ∧ SameContents m' mm' ∧
      (∀ b, b < n → m'.blk b = m0.blk b) ∧
      (st = .success → ∃ Rs' : List Foot, hs' = Rs'.map Foot.h ∧ Mixed n mm0 m' mm' Rs' (a.received k ks (Rs.map Foot.h) hs')) := by
  obtain ⟨s1, ag1, q, -⟩ := Tri.act (n := n) (m0 := m0) a Rs E m _ m' h.sep hag h.own e
  by_cases ha : a.Builds
  · obtain ⟨stab, hhs⟩ := Act.stable ha h.sep.wf e
    obtain ⟨mm', e2, s2, mk, hnew, hold⟩ := (Local.act a (Rs.map Foot.h)).under (k := a.allocator k ks) h.sep.wf e h.same h.marked (fun b hb => by
      have hm : m.blk b = none := Classical.not_not.1 fun hn => stab.live hn hb
      rw [hm]; exact (h.same.trans (enter_same mm _)).none_iff b |>.2 hm)
    refine ⟨mm', e2, s2, ag1, fun hst => ?_⟩
    obtain ⟨Rs', e', o'⟩ := q hst
    have e' : hs' = Rs'.map Foot.h := e'
    have hk : a.allocator k ks = k := by cases a <;> first | rfl | exact ha.elim
    have hr : a.received k ks (Rs.map Foot.h) hs' = if hs'.length = (Rs.map Foot.h).length then ks else k :: ks := by
      cases a <;> first | rfl | exact ha.elim
    have hten : ∀ R ∈ Rs, TenOk m' R := fun R hR => stab.ten (held_ok h.own hR)
    have hsrc : ∀ (i : Nat) (R : Foot) (k : Nat), Rs[i]? = some R → ks[i]? = some k → FromAllocator k mm' R.list := fun i R k hR hk' => by
      have hok := held_ok h.own (List.mem_of_getElem? hR)
      refine kept_source (h.source i R k hR hk') (fun b hb => ?_) fun b z hz hb => ?_
      · exact s2.live (stab.live (Tok.Ok.live (x := .ten R) hok hb))
      · exact hold b z (Tok.Ok.live (x := .ten R) hok hb) hz
    have hold' : ∀ b z, b < n → mm'.blk b = some z → ∃ y, mm0.blk b = some ⟨z.heap, y⟩ := fun b z hb hz => by
      have hm : m.blk b ≠ none := by
        rw [hag b hb, ← ag1 b hb]
        intro hn
        have := (s2.none_iff b).2 hn
        rw [this] at hz; cases hz
      obtain ⟨y, hy⟩ := hold b z hm hz
      exact h.old b ⟨z.heap, y⟩ hb hy
    refine ⟨Rs', e', ?_⟩
    rw [hr]
    rcases hhs with hhs | ⟨p, hhs⟩
    · have hhs : hs' = Rs.map Foot.h := hhs
      rw [if_pos (by rw [hhs])]
      have hR : Rs' = Rs := same_feet hten (fun R hR => held_ok o' hR) (e'.symm.trans hhs)
      subst hR
      exact ⟨s1, o', s2, mk, h.len, hsrc, hold'⟩
    · have hhs : hs' = p :: Rs.map Foot.h := hhs
      rw [if_neg (by rw [hhs]; simp)]
      cases Rs' with
      | nil => rw [e'] at hhs; cases hhs
      | cons R Rs' =>
        rw [e'] at hhs
        simp only [List.map_cons, List.cons.injEq] at hhs
        have hR : Rs' = Rs := same_feet hten (fun R hR => held_ok o' (List.mem_cons_of_mem _ hR)) hhs.2
        subst hR
        refine ⟨s1, o', s2, mk, by simp [h.len], fun i R' k' hR' hk' => ?_, hold'⟩
        cases i with
        | zero =>
          simp only [List.getElem?_cons_zero, Option.some.injEq] at hR' hk'
          subst hR' hk'
          intro b hb
          have hm : m.blk b = none := by
            refine Classical.not_not.1 fun hn => ?_
            have hf : n ≤ b := o'.fresh b (List.mem_append_left _ hb)
            exact (List.nodup_append.1 o'.nodup).2.2 b hb b (h.own.live rfl b hf hn) rfl
          obtain ⟨x, hx⟩ := own_blocks (held_ok o' List.mem_cons_self) hb
          exact ⟨x, by rw [← hk]; exact hnew b x hm hx⟩
        | succ i =>
          simp only [List.getElem?_cons_succ] at hR' hk'
          exact hsrc i R' k' hR' hk'
  · cases a with
    | destroy i =>
      simp only [Act.allocator, Act.received]
      have e0 := e
      simp only [Act.run] at e
      cases hi : (Rs.map Foot.h)[i]? with
      | none => rw [hi] at e; cases e
      | some p =>
        obtain ⟨R, hR, rfl⟩ := held_get hi
        rw [hi] at e
        simp only at e
        have hok := held_ok h.own (List.mem_of_getElem? hR)
        have hnd : R.list.Nodup := by
          have := (h.own.perm (perm_eraseIdx (x := .ten R) (i := i) (l := held Rs) (by simp [held, hR]))).nodup
          exact (List.nodup_append.1 this).1
        obtain ⟨m1, r1, n1, hb1⟩ := destroy_own (E := E) hok hnd
        rw [run_bind, r1] at e
        cases e
        have hil : i < ks.length := by
          rw [h.len]; exact (List.getElem?_eq_some_iff.1 hR).1
        have hki : ks[i]? = some (ks.getD i k) := by simp [hil]
        have hfrom := h.source i R _ hR hki
        obtain ⟨mm', e2, s2, mk, -, hold⟩ := (Local.act (.destroy i) (Rs.map Foot.h)).under (k := ks.getD i k) h.sep.wf e0 h.same h.marked (fun b hb => by
          rw [hb1] at hb
          by_cases hbR : b ∈ R.list
          · obtain ⟨x, hx⟩ := hfrom b hbR
            obtain ⟨y, hy⟩ := own_blocks hok hbR
            have := h.same.body b
            rw [hx, hy] at this
            simp at this
            simp [Mem.enter, hx, hy, Origin.enter, this]
          · rw [if_neg hbR] at hb
            rw [hb]; exact (h.same.trans (enter_same mm _)).none_iff b |>.2 hb)
        refine ⟨mm', e2, s2, ag1, fun _ => ?_⟩
        obtain ⟨Rs', e', o'⟩ := q rfl
        have e' : (Rs.map Foot.h).eraseIdx i = Rs'.map Foot.h := e'
        have hlive : ∀ b z, mm'.blk b = some z → m.blk b ≠ none := fun b z hz hn => by
          have : m'.blk b = none := by rw [hb1]; split <;> simp_all
          rw [(s2.none_iff b).2 this] at hz; cases hz
        have hR' : Rs' = Rs.eraseIdx i := by
          refine same_feet (m := m') (fun R1 hR1 => ?_) (fun R1 hR1 => held_ok o' hR1) (by rw [← e', map_eraseIdx'])
          have hmem := List.mem_of_mem_eraseIdx hR1
          have ok1 := held_ok h.own hmem
          refine Tok.Ok.keep (x := .ten R1) ok1 fun b hb => .inl ?_
          rw [hb1, if_neg]
          intro hbR
          have := (h.own.perm (perm_eraseIdx (x := .ten R) (i := i) (l := held Rs) (by simp [held, hR]))).nodup
          refine (List.nodup_append.1 this).2.2 b hbR b (List.mem_flatMap.2 ⟨.ten R1, ?_, hb⟩) rfl
          rw [held, map_eraseIdx']
          exact List.mem_map.2 ⟨R1, hR1, rfl⟩
        refine ⟨Rs', e', s1, o', s2, mk, ?_, fun i' R1 k1 hR1 hk1 => ?_, fun b z hb hz => ?_⟩
        · rw [hR', List.length_eraseIdx, List.length_eraseIdx, h.len]
        · have hok1 := held_ok o' (List.mem_of_getElem? hR1)
          rw [hR', List.getElem?_eraseIdx] at hR1
          rw [List.getElem?_eraseIdx] at hk1
          have hf1 : FromAllocator k1 mm R1.list := by
            by_cases hlt : i' < i
            · rw [if_pos hlt] at hR1 hk1; exact h.source _ R1 k1 hR1 hk1
            · rw [if_neg hlt] at hR1 hk1; exact h.source _ R1 k1 hR1 hk1
          exact kept_source hf1 (fun b hb => s2.live (Tok.Ok.live (x := .ten R1) hok1 hb)) fun b z hz _ => hold b z (hlive b z hz) hz
        · obtain ⟨y, hy⟩ := hold b z (hlive b z hz) hz
          exact h.old b ⟨z.heap, y⟩ hb hy
    | _ => exact absurd trivial ha

/-- The whole program. -/
theorem Mixed.run (as : List (Nat × Act)) : ∀ {m mm m' : Mem} {Rs : List Foot} {ks : List Nat} {st : Status} {hs' : List Ptr}, Mixed n mm0 m mm Rs ks →
    (∀ b, b < n → m.blk b = m0.blk b) → runAll (as.map Prod.snd) (Rs.map Foot.h) E m = .ok (st, hs') m' →
    ∃ ks' mm', runMixed as (Rs.map Foot.h) ks E mm = .ok (st, hs', ks') mm' ∧ SameContents m' mm' ∧ (∀ b, b < n → m'.blk b = m0.blk b) ∧
      (st = .success → ∃ Rs' : List Foot, hs' = Rs'.map Foot.h ∧ Mixed n mm0 m' mm' Rs' ks') := by
  induction as with
  | nil =>
    intro m mm m' Rs ks st hs' h ag e
    cases e
    exact ⟨ks, mm, rfl, h.same, ag, fun _ => ⟨Rs, rfl, h⟩⟩
  | cons ka as ih =>
    intro m mm m' Rs ks st hs' h ag e
    obtain ⟨k, a⟩ := ka
    simp only [List.map_cons, Aitisa.runAll] at e
    rw [run_bind] at e
    cases hr : a.run (Rs.map Foot.h) E m with
    | ok r m1 =>
      obtain ⟨st1, hs1⟩ := r
      rw [hr] at e
      obtain ⟨mm1, e1, s1, ag1, q⟩ := h.step ag a hr k
      simp only [runMixed]
      rw [run_bind, e1]
      by_cases hst : st1 = .success
      · simp only [Res.andThen, if_pos hst] at e ⊢
        obtain ⟨Rs1, rfl, h1⟩ := q hst
        exact ih h1 ag1 e
      · simp only [Res.andThen, if_neg hst] at e ⊢
        cases e
        exact ⟨_, mm1, rfl, s1, ag1, fun h => absurd h hst⟩
    | ub u => rw [hr] at e; cases e
    | abort => rw [hr] at e; cases e
    | fuel => rw [hr] at e; cases e

/-- The state at the start. -/
theorem Mixed.start (wf : mm.WF) (hm : mm.Marked) (j : Nat) : Mixed mm.next mm (mm.enter j) mm [] [] where
  sep := Sep.self ((enter_same mm j).wf wf)
  own := Own.self ((enter_same mm j).wf wf) true
  same := (enter_same mm j).symm
  marked := hm
  len := rfl
  source i R k h := by simp at h
  old b z _ hz := ⟨z.body, hz⟩

/-- Destruction of what is left. -/
theorem Mixed.finish (Rs : List Foot) : ∀ {m mm : Mem} {ks : List Nat}, Mixed n mm0 m mm Rs ks → (∀ b, b < n → m.blk b = m0.blk b) →
    ∃ m' mm', destroyMixed (Rs.map Foot.h) ks E mm = .ok () mm' ∧ Mixed n mm0 m' mm' [] [] ∧ ∀ b, b < n → m'.blk b = m0.blk b := by
  induction Rs with
  | nil =>
    intro m mm ks h ag
    have : ks = [] := List.length_eq_zero_iff.1 h.len
    subst this
    exact ⟨m, mm, rfl, h, ag⟩
  | cons R Rs ih =>
    intro m mm ks h ag
    cases ks with
    | nil => exact absurd h.len (by simp)
    | cons k ks =>
      obtain ⟨m1, r1, -⟩ := destroy_own (E := E) (held_ok h.own List.mem_cons_self) (List.nodup_append.1 h.own.nodup).1
      have e : Act.run ((R :: Rs).map Foot.h) (.destroy 0) E m = .ok (.success, Rs.map Foot.h) m1 := by
        simp only [Act.run, List.map_cons, List.getElem?_cons_zero]
        rw [run_bind, r1]; rfl
      obtain ⟨mm1, e1, s1, ag1, q⟩ := h.step ag (.destroy 0) e k
      obtain ⟨Rs', eR, h1⟩ := q rfl
      have hR : Rs' = Rs := by
        obtain ⟨-, -, ⟨-, o1⟩, -⟩ := Tri.destroy (k := true) (L := held Rs) E m _ m1 h.sep ag h.own r1
        exact same_feet (fun R hR => held_ok o1 hR) (fun R hR => held_ok h1.own hR) eR.symm
      subst hR
      obtain ⟨m', mm', e2, h2, ag2⟩ := ih h1 ag1
      refine ⟨m', mm', ?_, h2, ag2⟩
      simp only [List.map_cons, destroyMixed]
      obtain ⟨r, ed⟩ : ∃ r, M.under k (destroy R.h) E mm = .ok r mm1 := by
        have e1 : M.under k (Act.run ((R :: Rs').map Foot.h) (.destroy 0)) E mm = .ok (.success, Rs'.map Foot.h) mm1 := e1
        unfold M.under at e1 ⊢
        simp only [Act.run, List.map_cons, List.getElem?_cons_zero] at e1
        rw [run_bind] at e1
        cases hd : destroy R.h E (mm.enter k) with
        | ok r m2 => rw [hd] at e1; injection e1 with _ e4; exact ⟨r, by rw [← e4]⟩
        | ub u => rw [hd] at e1; cases e1
        | abort => rw [hd] at e1; cases e1
        | fuel => rw [hd] at e1; cases e1
      rw [run_bind]
      simp only [List.headD_cons, ed, Res.andThen]
      exact e2

/-- A completed run with an allocator installed. -/
theorem under_ok {α : Type} {x : M α} {a : α} (h : M.under j x E m = .ok a m') : ∃ m1, x E (m.enter j) = .ok a m1 ∧ m' = m1.leave j := by
  unfold M.under at h
  cases e : x E (m.enter j) with
  | ok b m1 => rw [e] at h; cases h; exact ⟨m1, rfl, rfl⟩
  | ub u => rw [e] at h; cases h
  | abort => rw [e] at h; cases h
  | fuel => rw [e] at h; cases h

theorem tok_nodup {L : List Tok} {x : Tok} (h : (tokBlocks L).Nodup) (hx : x ∈ L) : x.blocks.Nodup := by
  induction L with
  | nil => cases hx
  | cons y L ih =>
    have h' : (y.blocks ++ tokBlocks L).Nodup := h
    rw [List.nodup_append] at h'
    rcases List.mem_cons.1 hx with rfl | hx
    · exact h'.1
    · exact ih h'.2.1 hx

/-! ## C70 -/

/-- C70. Whatever the operator and its arguments: a call that completes gives the same result and does the same if the memory that
existed before the call came from anywhere else, even from nowhere the library could return it to. So it returns none of that memory
to the installed allocator or to `free`. -/
theorem C70_operators (c : Call) {out p : Ptr} {st : Status} (wf : m.WF) (h : c.run out E m = .ok (st, p) m') {L : Nat → Option Origin}
    (hL : ∀ b, L b ≠ none → m.blk b ≠ none) : c.run out E (m.relabel L) = .ok (st, p) (m'.relabel L) := by
  exact (c.op out E m st p m' wf h).2.2.2 L fun b hb => Classical.not_not.1 fun hn => hL b hn (wf b hb)

/-- C70 for conversion. -/
theorem C70_cast (t out : Ptr) (dt : DType) {p : Ptr} {st : Status} (wf : m.WF) (h : cast t dt out E m = .ok (st, p) m')
    {L : Nat → Option Origin} (hL : ∀ b, L b ≠ none → m.blk b ≠ none) : cast t dt out E (m.relabel L) = .ok (st, p) (m'.relabel L) := by
  obtain ⟨-, -, -, i⟩ := Tri.cast (n := m.next) (m0 := m) t dt out E m _ m' (Sep.self wf) (fun _ _ => rfl) (Own.self wf true) h
  exact i L fun b hb => Classical.not_not.1 fun hn => hL b hn (wf b hb)

/-- C70. A call gives the same status, the same handle and the same contents of memory whichever allocator is installed and wherever
its operands came from; it leaves the existing memory as it is, and all memory of the tensor it gives came from the installed
allocator. -/
theorem C70_installed (c : Call) {out p : Ptr} {st : Status} (wf : m.WF) (hm : m.Marked) (h : M.under j (c.run out) E m = .ok (st, p) m') (k : Nat) :
    ∃ m2, M.under k (c.run out) E m = .ok (st, p) m2 ∧ SameContents m' m2 ∧ m2.Marked ∧ (∀ b, b < m.next → m2.blk b = m.blk b) ∧
      (st = .success → ∃ R, Leads (m2.enter k) p R ∧ FromAllocator k m2 R.list ∧ ∀ b, (m.blk b = none ∧ m2.blk b ≠ none) ↔ b ∈ R.list) := by
  obtain ⟨m1, e, rfl⟩ := under_ok h
  have wfj := (enter_same m j).wf wf
  have fr := (C06_operators c out E _ st p m1 wfj e).1
  have dead : ∀ b, m1.blk b = none → (m.enter j).blk b = none := fun b hb => by
    by_cases hlt : b < m.next
    · rw [← fr.same b hlt]; exact hb
    · exact wfj b (Nat.le_of_not_lt hlt)
  obtain ⟨m2, e2, s2, mk, -, hold⟩ := (Local.call c out).under (k := k) wfj e (enter_same m j).symm hm fun b hb => by
    have hn := dead b hb
    rw [hn]; exact (((enter_same m j).symm.trans (enter_same m k)).none_iff b).2 hn
  refine ⟨m2, e2, (leave_same m1 j).symm.trans s2, mk, fun b hb => ?_, fun hst => ?_⟩
  · have hbody := s2.body b
    rw [fr.same b hb, (enter_same m j).body b] at hbody
    cases e : m2.blk b with
    | none =>
      rw [e] at hbody
      cases em : m.blk b with
      | none => rfl
      | some y => rw [em] at hbody; cases hbody
    | some z =>
      have hl : (m.enter j).blk b ≠ none := fun hn => by
        have := fr.same b hb
        rw [hn] at this
        rw [(s2.none_iff b).2 this] at e; cases e
      obtain ⟨y, hy⟩ := hold b z hl e
      rw [e, hy] at hbody
      rw [hy]
      obtain ⟨zo, zb⟩ := z
      simp at hbody
      simp [hbody]
  · subst hst
    obtain ⟨m3, e3, rfl⟩ := under_ok e2
    obtain ⟨R, hR, hex⟩ := C07_operators c out E _ p m3 ((enter_same m k).wf wf) e3
    have hown : ∀ b ∈ R.list, ∃ x, m3.blk b = some ⟨.own, x⟩ := fun b hb =>
      own_blocks (m := m3) ⟨hR.tensor, hR.storage, hR.data, hR.dims, hR.layout⟩ hb
    have hex' : ∀ b, (m.blk b = none ∧ (m3.leave k).blk b ≠ none) ↔ b ∈ R.list := fun b => by
      rw [← hex b, ← (enter_same m k).none_iff b, ne_eq, (leave_same m3 k).none_iff b]
    refine ⟨R, ?_, fun b hb => ?_, hex'⟩
    · have heq : ∀ b ∈ R.list, ((m3.leave k).enter k).blk b = m3.blk b := fun b hb => by
        obtain ⟨x, hx⟩ := hown b hb
        simp [Mem.leave, Mem.enter, hx, Origin.leave, Origin.enter]
      obtain ⟨t, ht, t1⟩ := hR.tensor
      obtain ⟨s, hs, s1⟩ := hR.storage
      obtain ⟨d, hd⟩ := hR.data
      refine ⟨hR.handle, ⟨t, ?_, t1⟩, ⟨s, ?_, s1⟩, ⟨d, ?_⟩, fun d hd => ?_, fun l hl => ?_, hR.nodup⟩
      · rw [heq _ (by simp [Foot.list])]; exact ht
      · rw [heq _ (by simp [Foot.list])]; exact hs
      · rw [heq _ (by simp [Foot.list])]; exact hd
      · rw [heq _ (by simp [Foot.list, hd])]; exact hR.dims d hd
      · rw [heq _ (by simp [Foot.list, hl])]; exact hR.layout l hl
    · obtain ⟨x, hx⟩ := hown b hb
      exact ⟨x, by simp [Mem.leave, hx, Origin.leave]⟩

/-- C70 for programs. If a program completes with one allocator, then it gives the same statuses and handles and the same contents of
memory when it chooses any allocator for each call and destroys each tensor with the allocator it received it with. -/
theorem C70_programs (as : List (Nat × Act)) {st : Status} {hs : List Ptr} (wf : m.WF) (hm : m.Marked)
    (h : M.under j (runAll (as.map Prod.snd) []) E m = .ok (st, hs) m') :
    ∃ ks m2, runMixed as [] [] E m = .ok (st, hs, ks) m2 ∧ SameContents m' m2 := by
  obtain ⟨m1, e, rfl⟩ := under_ok h
  obtain ⟨ks, mm, e2, s2, -⟩ := (Mixed.start wf hm j).run (m0 := m.enter j) as (fun _ _ => rfl) e
  exact ⟨ks, mm, e2, (leave_same m1 j).symm.trans s2⟩

/-- C70. When such a program has succeeded, each tensor it holds is entirely in memory of the allocator it was received with. -/
theorem C70_origins (as : List (Nat × Act)) {hs : List Ptr} (wf : m.WF) (hm : m.Marked)
    (h : M.under j (runAll (as.map Prod.snd) []) E m = .ok (.success, hs) m') :
    ∃ (ks : List Nat) (m2 : Mem) (Rs : List Foot), runMixed as [] [] E m = .ok (.success, hs, ks) m2 ∧ hs = Rs.map Foot.h ∧ ks.length = Rs.length ∧
      ∀ (i : Nat) (R : Foot) (k : Nat), Rs[i]? = some R → ks[i]? = some k → FromAllocator k m2 R.list ∧ Leads (m2.enter k) R.h R := by
  obtain ⟨m1, e, rfl⟩ := under_ok h
  obtain ⟨ks, mm, e2, s2, -, q⟩ := (Mixed.start wf hm j).run (m0 := m.enter j) as (fun _ _ => rfl) e
  obtain ⟨Rs, rfl, hM⟩ := q rfl
  refine ⟨ks, mm, Rs, e2, rfl, hM.len, fun i R k hR hk => ?_⟩
  have src := hM.source i R k hR hk
  have hT := held_ok hM.own (List.mem_of_getElem? hR)
  have hnd : R.list.Nodup :=
     tok_nodup hM.own.nodup (x := .ten R) (List.mem_map.2 ⟨R, List.mem_of_getElem? hR, rfl⟩)
  have heq : ∀ b ∈ R.list, (mm.enter k).blk b = m1.blk b := fun b hb => by
    obtain ⟨x, hx⟩ := src b hb
    obtain ⟨y, hy⟩ := own_blocks hT hb
    have := s2.body b
    rw [hx, hy] at this
    simp at this
    simp [Mem.enter, hx, hy, Origin.enter, this]
  obtain ⟨t, ht, t1⟩ := hT.tensor
  obtain ⟨s, hs, s1⟩ := hT.storage
  obtain ⟨d, hd⟩ := hT.data
  refine ⟨src, rfl, ⟨t, ?_, t1⟩, ⟨s, ?_, s1⟩, ⟨d, ?_⟩, fun d hd => ?_, fun l hl => ?_, hnd⟩
  · rw [heq _ (by simp [Foot.list])]; exact ht
  · rw [heq _ (by simp [Foot.list])]; exact hs
  · rw [heq _ (by simp [Foot.list])]; exact hd
  · rw [heq _ (by simp [Foot.list, hd])]; exact hT.dims d hd
  · rw [heq _ (by simp [Foot.list, hl])]; exact hT.layout l hl

/-- C70. When such a program has succeeded, destroying the tensors it still holds, each with the allocator it was received with, is
possible and leaves memory as it was before the program. -/
theorem C70_returned (as : List (Nat × Act)) {hs : List Ptr} (wf : m.WF) (hm : m.Marked)
    (h : M.under j (runAll (as.map Prod.snd) []) E m = .ok (.success, hs) m') :
    ∃ ks m2 m3, runMixed as [] [] E m = .ok (.success, hs, ks) m2 ∧ destroyMixed hs ks E m2 = .ok () m3 ∧ ∀ b, m3.blk b = m.blk b := by
  obtain ⟨m1, e, rfl⟩ := under_ok h
  obtain ⟨ks, mm, e2, -, ag, q⟩ := (Mixed.start wf hm j).run (m0 := m.enter j) as (fun _ _ => rfl) e
  obtain ⟨Rs, rfl, hM⟩ := q rfl
  obtain ⟨m4, m3, e3, hF, ag'⟩ := hM.finish (E := E) Rs ag
  refine ⟨ks, mm, m3, e2, e3, fun b => ?_⟩
  by_cases hb : b < m.next
  · have hbody := hF.same.body b
    rw [ag' b hb, (enter_same m j).body b] at hbody
    cases e : m3.blk b with
    | none =>
      rw [e] at hbody
      cases em : m.blk b with
      | none => rfl
      | some y => rw [em] at hbody; cases hbody
    | some z =>
      obtain ⟨y, hy⟩ := hF.old b z hb e
      rw [e, hy] at hbody
      rw [hy]
      obtain ⟨zo, zb⟩ := z
      simp at hbody
      simp [hbody]
  · have hle := Nat.le_of_not_lt hb
    rw [wf b hle]
    refine (hF.same.none_iff b).2 (Classical.not_not.1 fun hn => ?_)
    have := hF.own.live rfl b hle hn
    simp [held, tokBlocks] at this

/-- C70. A tensor is destroyed completely, and nothing else is, when the allocator it came from is installed. -/
theorem C70_destroy {R : Foot} {T : TV} (hm : m.Marked) (h : At (m.enter k) R T) :
    ∃ m', M.under k (destroy R.h) E m = .ok (.success, .null) m' ∧ ∀ b, m'.blk b = if b ∈ R.list then none else m.blk b := by
  obtain ⟨m1, e, -, hb⟩ := C04_destroy (E := E) h
  refine ⟨m1.leave k, by unfold M.under; rw [e], fun b => ?_⟩
  simp only [Mem.leave, hb]
  split
  · rfl
  · simp only [Mem.enter]
    cases e : m.blk b with
    | none => rfl
    | some x => simp [origin_leave_enter (hm b x e)]

/-- C70. When another allocator is installed the destruction hands it memory that it did not provide: undefined behaviour. -/
theorem C70_destroy_elsewhere {R : Foot} {T : TV} (hm : m.Marked) (h : At (m.enter j) R T) (hk : k ≠ j) :
    M.under k (destroy R.h) E m = .ub .badFree := by
  have hblk : ∀ b x, (m.enter j).blk b = some ⟨.own, x⟩ → (m.enter k).blk b = some ⟨.other j, x⟩ := by
    intro b x hx
    simp only [Mem.enter] at hx ⊢
    cases e : m.blk b with
    | none => rw [e] at hx; cases hx
    | some y =>
      obtain ⟨yo, yb⟩ := y
      rw [e] at hx
      have hy := hm b _ e
      cases yo with
      | own => exact absurd rfl hy
      | other i =>
        simp only [Option.map_some, Option.some.injEq, Block.mk.injEq, Origin.enter] at hx ⊢
        have hi : i = j := Classical.not_not.1 fun hne => by rw [if_neg hne] at hx; cases hx.1
        subst hi
        rw [if_neg (Ne.symm hk)]
        exact ⟨rfl, hx.2⟩
      | malloc => cases hx
      | fixed => cases hx
      | const => cases hx
  have bad : ∀ b x, (m.enter k).blk b = some ⟨.other j, x⟩ → rawFree (.blk b) E (m.enter k) = .ub .badFree := fun b x hx => by
    simp [rawFree, hx]
  have ht := hblk _ _ h.tensor
  have hs := hblk _ _ h.storage
  have hp := hblk _ _ h.data
  have : destroy R.h E (m.enter k) = .ub .badFree := by
    unfold destroy destroyShape Foot.h
    rcases h.dims with ⟨h0, hd⟩ | ⟨d, hne, hd, hbd⟩
    · rcases h.layout with ⟨-, hl⟩ | ⟨l, hne, -⟩
      · unfold destroyStorage
        rw [hd, hl] at ht
        msimp [run_derefT ht, run_derefS hs, optPtr, bad _ _ hp]
      · exact absurd h0 hne
    · rw [hd] at ht
      have hbd := bad _ _ (hblk _ _ hbd)
      msimp [run_derefT ht, optPtr, hbd]
  unfold M.under
  rw [this]

/-- A program that creates a tensor with allocator 3, makes the others with 5 and 7, and converts with 3 again. -/
def exMixed : List (Nat × Act) := List.zip [3, 5, 7, 3, 9, 3, 5, 7] exProg

/-- It succeeds and ends holding tensors received with these allocators. -/
def exMixedOk (ks0 : List Nat) (r : Res (Status × List Ptr × List Nat)) : Bool :=
  match r with
  | .ok (.success, hs, ks) _ => hs.length == 4 && ks == ks0
  | _ => false

example : exProgOk (M.under 3 (runAll (exMixed.map Prod.snd) []) okEnv Mem.empty) = true := by decide +kernel

example : Mem.empty.Marked := fun b x h => by cases h

example : exMixedOk [7, 3, 7, 3] (runMixed exMixed [] [] okEnv Mem.empty) = true := by decide +kernel

/-- Allocator 5 is installed when a tensor of allocator 3 is destroyed. -/
example : Res.ubIs ((do
    let (_, p) ← M.under 3 (Call.full Code.i32.dtype ⟨DEVICE_CPU, 0⟩ [some 2, some 3] 2 4 |>.run .null)
    M.under 5 (destroy p)) okEnv Mem.empty) .badFree = true := by decide +kernel

end Aitisa
