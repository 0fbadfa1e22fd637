import Verif.Spec.AllocProg
import Verif.Props.Local
import Verif.Props.History

/-!
# Computations do not depend on where the memory they keep comes from
-/

namespace Aitisa

variable {α : Type} {n : Nat} {E : Env} {m m' m0 mm : Mem} {j k : Nat} {r : Bool}

theorem SameContents.refl (m : Mem) : SameContents m m := ⟨rfl, rfl, rfl, fun _ => rfl, fun _ => rfl⟩

theorem SameContents.symm (h : SameContents m m') : SameContents m' m :=
  ⟨h.next.symm, h.tick.symm, h.rtick.symm, fun b => (h.body b).symm, fun b => (h.ro b).symm⟩

theorem SameContents.trans {a b c : Mem} (h : SameContents a b) (h' : SameContents b c) : SameContents a c :=
  ⟨h'.next.trans h.next, h'.tick.trans h.tick, h'.rtick.trans h.rtick, fun x => (h'.body x).trans (h.body x),
    fun x => (h'.ro x).trans (h.ro x)⟩

theorem enter_same (m : Mem) (k : Nat) : SameContents m (m.enter k) :=
  ⟨rfl, rfl, rfl, fun b => by simp only [Mem.enter]; cases m.blk b <;> rfl, fun b => by
    simp only [Mem.enter]
    cases m.blk b with
    | none => rfl
    | some x =>
      obtain ⟨o, x⟩ := x
      cases o <;> simp [Origin.enter]
      split <;> simp⟩

theorem leave_same (m : Mem) (k : Nat) : SameContents m (m.leave k) :=
  ⟨rfl, rfl, rfl, fun b => by simp only [Mem.leave]; cases m.blk b <;> rfl, fun b => by
    simp only [Mem.leave]
    cases m.blk b with
    | none => rfl
    | some x =>
      obtain ⟨o, x⟩ := x
      cases o <;> simp [Origin.leave]⟩

theorem SameContents.none_iff (h : SameContents m m') (b : Nat) : m'.blk b = none ↔ m.blk b = none := by
  have := h.body b
  cases e : m.blk b <;> cases e' : m'.blk b <;> simp [e, e'] at this ⊢

theorem SameContents.wf (h : SameContents m m') (w : m.WF) : m'.WF := fun b hb =>
  (h.none_iff b).2 (w b (by rw [h.next] at hb; exact hb))

/-- The origins of the blocks of `m'` that are live and satisfy `p`. -/
def originsOf (m' : Mem) (p : Nat → Bool) : Nat → Option Origin := fun b => if p b then (m'.blk b).map Block.heap else none

/-- Memory with the same contents differs only in the origins. -/
theorem SameContents.eq_relabel (h : SameContents m m') {p : Nat → Bool}
    (hp : ∀ b, p b = false → m'.blk b = m.blk b) : m' = m.relabel (originsOf m' p) := by
  obtain ⟨n1, t1, r1, f1⟩ := m
  obtain ⟨n2, t2, r2, f2⟩ := m'
  obtain ⟨h1, h2, h3, h4, -⟩ := h
  simp only at h1 h2 h3 h4 hp
  subst h1 h2 h3
  simp only [Mem.relabel, Mem.mk.injEq, true_and]
  funext b
  have h4 := h4 b
  simp only [originsOf]
  by_cases hb : p b = true
  · rw [if_pos hb]
    cases e1 : f1 b with
    | none => cases e2 : f2 b with
      | none => rfl
      | some y => simp [e1, e2] at h4
    | some x => cases e2 : f2 b with
      | none => simp [e1, e2] at h4
      | some y =>
        obtain ⟨xo, xb⟩ := x
        obtain ⟨yo, yb⟩ := y
        simp [e1, e2] at h4
        simp [h4]
  · rw [if_neg hb, hp b (by simpa using hb)]
    cases f1 b <;> simp

/-- A computation, in memory with the same contents but other origins of the blocks it keeps. -/
theorem Local.origins {x : M α} (hx : Local r x) {a : α} (wf : m.WF) (e : x E m = .ok a m') {m2 : Mem} (h : SameContents m m2)
    (hf : ∀ b, m'.blk b = none → m2.blk b = m.blk b) :
    ∃ m2', x E m2 = .ok a m2' ∧ SameContents m' m2' ∧
      ∀ b o y, m2'.blk b = some ⟨o, y⟩ → (m.blk b = none → ∃ y, m'.blk b = some ⟨o, y⟩) ∧ (m.blk b ≠ none → ∃ z, m2.blk b = some ⟨o, z⟩) := by
  have hp : ∀ b, (m'.blk b).isSome = false → m2.blk b = m.blk b := fun b hb => hf b (by simpa using hb)
  have e2 := h.eq_relabel (p := fun b => (m'.blk b).isSome) hp
  have hl : Labels m m' (originsOf m2 fun b => (m'.blk b).isSome) := by
    intro b hb
    unfold originsOf at hb
    by_cases hs : (m'.blk b).isSome = true
    · refine ⟨fun hn => by simp [hn] at hs, Nat.lt_of_not_le fun hle => ?_, fun hc x hx => ?_⟩
      · have := (h.none_iff b).2 (wf b hle)
        simp [this] at hb
      · have hro := h.ro b
        simp only [originsOf, if_pos hs] at hc
        cases e2 : m2.blk b with
        | none => rw [e2] at hc; cases hc
        | some y =>
          rw [e2] at hc
          rw [e2, hx] at hro
          simp at hc hro
          exact hro.1 hc
    · simp [hs] at hb
  have r1 := (hx E m a m' e).2.2 _ hl
  have fw := (hx E m a m' e).1
  refine ⟨m'.relabel (originsOf m2 fun b => (m'.blk b).isSome), (congrArg (x E) e2).trans r1, ⟨rfl, rfl, rfl, fun b => by simp only [Mem.relabel]; cases m'.blk b <;> rfl, fun b => ?_⟩, fun b o y hb => ?_⟩
  · show ((m'.blk b).map fun k => (⟨(originsOf m2 (fun b => (m'.blk b).isSome) b).getD k.heap, k.body⟩ : Block)).map _ = _
    generalize hL : originsOf m2 (fun b => (m'.blk b).isSome) b = o
    cases e' : m'.blk b with
    | none => rfl
    | some z =>
      obtain rfl : (m2.blk b).map Block.heap = o := by rw [← hL]; simp [originsOf, e']
      simp only [Option.map_some]
      cases em : m2.blk b with
      | none => rfl
      | some w =>
        have hro := h.ro b
        cases e0 : m.blk b with
        | none => rw [(h.none_iff b).2 e0] at em; cases em
        | some v =>
          rw [em, e0] at hro
          have hlt : b < m.next := Nat.lt_of_not_le fun hle => by rw [wf b hle] at e0; cases e0
          have := fw.heap b v z hlt e0 e'
          simp at hro ⊢
          rw [this]; exact hro
  simp only [Mem.relabel, originsOf] at hb
  cases e' : m'.blk b with
  | none => simp [e'] at hb
  | some z =>
    simp only [e', Option.isSome_some, if_true] at hb
    cases em : m2.blk b with
    | none =>
      have := (h.none_iff b).1 em
      rw [em] at hb
      simp at hb
      refine ⟨fun _ => ⟨z.body, ?_⟩, fun hn => absurd this hn⟩
      obtain ⟨zo, zb⟩ := z
      simp at hb
      rw [hb.1]
    | some w =>
      rw [em] at hb
      simp at hb
      refine ⟨fun hn => ?_, fun _ => ⟨w.body, ?_⟩⟩
      · rw [(h.none_iff b).2 hn] at em; cases em
      · obtain ⟨wo, wb⟩ := w
        simp at hb
        rw [hb.1]

theorem origin_leave_enter {o : Origin} (h : o ≠ .own) (k : Nat) : (o.enter k).leave k = o := by
  cases o with
  | own => exact absurd rfl h
  | other j => by_cases e : j = k <;> simp [Origin.enter, Origin.leave, e]
  | malloc => rfl
  | fixed => rfl
  | const => rfl

theorem origin_leave_ne (o : Origin) (k : Nat) : o.leave k ≠ .own := by cases o <;> simp [Origin.leave]

theorem leave_marked (m : Mem) (k : Nat) : (m.leave k).Marked := by
  intro b x hx
  simp only [Mem.leave] at hx
  cases e : m.blk b with
  | none => rw [e] at hx; cases hx
  | some y => rw [e] at hx; cases hx; exact origin_leave_ne _ _

/-- A computation with allocator `k` installed, compared with one in memory with the same contents. -/
theorem Local.under {x : M α} (hx : Local r x) {a : α} (wf : m.WF) (e : x E m = .ok a m') (h : SameContents m mm) (hm : mm.Marked)
    (hf : ∀ b, m'.blk b = none → (mm.enter k).blk b = m.blk b) :
    ∃ mm', M.under k x E mm = .ok a mm' ∧ SameContents m' mm' ∧ mm'.Marked ∧
      (∀ b z, m.blk b = none → m'.blk b = some ⟨.own, z⟩ → mm'.blk b = some ⟨.other k, z⟩) ∧
      ∀ b z, m.blk b ≠ none → mm'.blk b = some z → ∃ y, mm.blk b = some ⟨z.heap, y⟩ := by
  obtain ⟨m2', e2, s2, ho⟩ := hx.origins wf e (h.trans (enter_same mm k)) hf
  refine ⟨m2'.leave k, ?_, s2.trans (leave_same _ _), leave_marked _ _, fun b z hb hz => ?_, fun b z hb hz => ?_⟩
  · unfold M.under; rw [e2]
  · have hbody := s2.body b
    cases e : m2'.blk b with
    | none => rw [e, hz] at hbody; cases hbody
    | some w =>
      obtain ⟨wo, wb⟩ := w
      obtain ⟨y, hy⟩ := (ho b wo wb e).1 hb
      rw [hz] at hy
      rw [e, hz] at hbody
      simp at hbody
      cases hy
      simp [Mem.leave, e, Origin.leave, hbody]
  · simp only [Mem.leave] at hz
    cases e : m2'.blk b with
    | none => rw [e] at hz; cases hz
    | some w =>
      rw [e] at hz; cases hz
      obtain ⟨wo, wb⟩ := w
      obtain ⟨y, hy⟩ := (ho b wo wb e).2 hb
      simp only [Mem.enter] at hy
      cases em : mm.blk b with
      | none => rw [em] at hy; cases hy
      | some v =>
        rw [em] at hy
        cases hy
        refine ⟨v.body, ?_⟩
        simp only [origin_leave_enter (hm b v em)]

end Aitisa
