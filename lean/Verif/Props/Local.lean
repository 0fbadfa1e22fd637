import Verif.Proof.LocalOps
import Verif.Spec.Local
import Verif.Spec.Example
import Verif.Props.Oom

/-!
# C51, C52: what a call depends on
-/

namespace Aitisa

variable {E E' : Env} {m m' : Mem} {F : Nat → Option Block} {out : Ptr} {st : Status} {p : Ptr}

theorem Local.call (c : Call) (out : Ptr) : Local true (c.run out) := by
  cases c <;> unfold Call.run <;> simp only <;> loc

theorem Local.callFixed (c : Call) (h : c.Fixed) (out : Ptr) : Local false (c.run out) := by
  cases c <;> first | exact h.elim | (unfold Call.run; simp only; loc)

theorem Local.act (a : Act) (hs : List Ptr) : Local true (a.run hs) := by
  cases a with
  | call c => exact Local.bind (Local.call c _) fun _ => Local.pure _
  | cast h dt => exact Local.bind (Local.cast _ _ _) fun _ => Local.pure _
  | setItem i idx v =>
    simp only [Act.run]
    cases hs[i]? with
    | none => exact Local.ub _
    | some h => exact Local.bind (Local.setItem _ _ _) fun _ => Local.pure _
  | destroy i =>
    simp only [Act.run]
    cases hs[i]? with
    | none => exact Local.ub _
    | some h => exact Local.bind (Local.destroy _) fun _ => Local.pure _

theorem Local.runAll (as : List Act) (hs : List Ptr) : Local true (runAll as hs) := by
  induction as generalizing hs with
  | nil => exact Local.pure _
  | cons a as ih =>
    unfold Aitisa.runAll
    exact Local.bind (Local.act a hs) fun _ => Local.ite (ih _) (Local.pure _)

theorem plus_none (m : Mem) : (m.plus fun _ => none) = m := by
  simp only [Mem.plus]
  congr
  funext b
  cases m.blk b <;> rfl

theorem apart_none (m : Mem) : Apart m fun _ => none := fun _ h => absurd rfl h

theorem Env.Like.refl (E : Env) (m m' : Mem) : E.Like E m m' := ⟨rfl, fun h => h, .inl fun _ _ _ _ => ⟨rfl, rfl⟩, fun _ _ _ => rfl⟩

/-! ## C51 -/

theorem Local.apart {r : Bool} {α : Type} {x : M α} {a : α} (hx : Local r x) (h : x E m = .ok a m') (ha : Apart m F) : Apart m' F :=
  fun b hb => ⟨(hx E m a m' h).1.gone b (ha b hb).2 (ha b hb).1, Nat.lt_of_lt_of_le (ha b hb).2 (hx E m a m' h).1.next⟩

/-- C51. Whatever the call and its arguments: if it completes, it gives the same status and handle and makes the same changes when
there is other memory around, and it leaves that memory as it is. -/
theorem C51_operators (c : Call) (h : c.run out E m = .ok (st, p) m') (ha : Apart m F) :
    c.run out E (m.plus F) = .ok (st, p) (m'.plus F) ∧ Apart m' F :=
  ⟨(Local.call c out).selfContained E m _ m' h E F ha (.refl E m m'), (Local.call c out).apart h ha⟩

/-- C51 for conversion, writing an element and destruction, as a program makes these calls. -/
theorem C51_actions (a : Act) (hs hs' : List Ptr) (h : a.run hs E m = .ok (st, hs') m') (ha : Apart m F) :
    a.run hs E (m.plus F) = .ok (st, hs') (m'.plus F) ∧ Apart m' F :=
  ⟨(Local.act a hs).selfContained E m _ m' h E F ha (.refl E m m'), (Local.act a hs).apart h ha⟩

/-- C51 for whole programs. -/
theorem C51_programs (as : List Act) (hs hs' : List Ptr) (h : runAll as hs E m = .ok (st, hs') m') (ha : Apart m F) :
    runAll as hs E (m.plus F) = .ok (st, hs') (m'.plus F) ∧ Apart m' F :=
  ⟨(Local.runAll as hs).selfContained E m _ m' h E F ha (.refl E m m'), (Local.runAll as hs).apart h ha⟩

/-- Reading of the second conclusion: the other memory is there unchanged. -/
theorem C51_untouched (h : Apart m' F) (b : Nat) (hb : F b ≠ none) : (m'.plus F).blk b = F b := by
  simp only [Mem.plus, (h b hb).1]

/-! ## C52 -/

/-- C52. Whatever the call and its arguments: if it completes, it gives the same result and makes the same changes in all surroundings
with the same arithmetic that answer the requests it makes and give the random numbers it draws in the same way, even if assertions
are not checked there. -/
theorem C52_operators (c : Call) (h : c.run out E m = .ok (st, p) m') (hl : E.Like E' m m') : c.run out E' m = .ok (st, p) m' := by
  have := (Local.call c out).selfContained E m _ m' h E' _ (apart_none m) hl
  rwa [plus_none, plus_none] at this

/-- C52 for whole programs (with conversions, writes and destruction). -/
theorem C52_programs (as : List Act) (hs hs' : List Ptr) (h : runAll as hs E m = .ok (st, hs') m') (hl : E.Like E' m m') :
    runAll as hs E' m = .ok (st, hs') m' := by
  have := (Local.runAll as hs).selfContained E m _ m' h E' _ (apart_none m) hl
  rwa [plus_none, plus_none] at this

/-- C52. No operator but dropout depends on random numbers. -/
theorem C52_random (c : Call) (hc : c.Fixed) (rand : Nat → Nat) (h : c.run out E m = .ok (st, p) m') :
    c.run out { E with rand := rand } m = .ok (st, p) m' := by
  refine C52_operators c h ⟨rfl, fun h => h, .inl fun _ _ _ _ => ⟨rfl, rfl⟩, fun t h1 h2 => ?_⟩
  have := (Local.callFixed c hc out).unrandom E m _ m' h
  omega

/-- C52. A call that completes when assertions are checked gives the same result when they are not (release builds). -/
theorem C52_assertions (c : Call) (h : c.run out { E with asserts := true } m = .ok (st, p) m') :
    c.run out { E with asserts := false } m = .ok (st, p) m' :=
  C52_operators c h ⟨rfl, fun h => (by cases h), .inl fun _ _ _ _ => ⟨rfl, rfl⟩, fun _ _ _ => rfl⟩

/-- C52. A call that completes without being refused a request gives the same result with unlimited memory. -/
theorem C52_unlimited (c : Call) (h : c.run out E m = .ok (st, p) m') (hg : Granted m m') : c.run out E.unlimited m = .ok (st, p) m' :=
  C52_operators c h ⟨rfl, fun h => h, .inr ⟨hg, fun _ _ => ⟨fun _ => rfl, fun _ => rfl⟩⟩, fun _ _ _ => rfl⟩

/-- C52. If a call completes with unlimited memory, then it gives the same result with every allocator that grants the requests it
makes, whatever that allocator does before and after. -/
theorem C52_enough (c : Call) (h : c.run out E.unlimited m = .ok (st, p) m')
    (hg : ∀ t s, m.tick ≤ t → t < m'.tick → E.allocOk t s = true ∧ E.mallocOk t s = true) : c.run out E m = .ok (st, p) m' :=
  C52_operators c h ⟨rfl, fun h => h, .inl hg, fun _ _ _ => rfl⟩

/-! ## Examples -/

/-- Memory holding `exA`, with one more block already released. -/
def exGap : Mem := { exMem with next := 6 }

/-- The released block, as if it were still in use. -/
def exOther : Nat → Option Block := fun b => if b = 5 then some ⟨.own, .bytes [some 1, some 2]⟩ else none

theorem exOther_apart : Apart exGap exOther := by
  intro b hb
  have : b = 5 := Decidable.byContradiction fun h => hb (if_neg h)
  subst this
  exact ⟨rfl, by decide⟩

/-- The activation is computed in the same way when there is another block in memory. -/
example : ∃ p m', relu Mem.empty.footT.h .null okEnv exGap = .ok (.success, p) m' ∧
    relu Mem.empty.footT.h .null okEnv (exGap.plus exOther) = .ok (.success, p) (m'.plus exOther) ∧
    (m'.plus exOther).blk 5 = some ⟨.own, .bytes [some 1, some 2]⟩ := by
  obtain ⟨p, m', e⟩ := Res.gives_ok (r := relu Mem.empty.footT.h .null okEnv exGap) (st := .success) (by decide +kernel)
  obtain ⟨h1, h2⟩ := C51_operators (.relu Mem.empty.footT.h) e exOther_apart
  exact ⟨p, m', e, h1, C51_untouched h2 5 (by decide)⟩

/-- An allocator that refuses request 3 does not matter for a call that comes after five requests, whatever the random numbers. -/
example : ∃ p m', duplicate Mem.empty.footT.h .null okEnv exMem = .ok (.success, p) m' ∧
    duplicate Mem.empty.footT.h .null { failAt 3 with rand := fun n => n, asserts := false } exMem = .ok (.success, p) m' := by
  obtain ⟨p, m', e⟩ := Res.gives_ok (r := duplicate Mem.empty.footT.h .null okEnv exMem) (st := .success) (by decide +kernel)
  refine ⟨p, m', e, C52_operators (.duplicate Mem.empty.footT.h) e ⟨rfl, fun h => (by cases h), .inl fun t s h1 h2 => ?_, fun t h1 h2 => ?_⟩⟩
  · have : t ≠ 3 := by have : exMem.tick = 5 := rfl; omega
    simp [failAt, okEnv, this]
  · have := (Local.callFixed (.duplicate Mem.empty.footT.h) trivial .null).unrandom _ _ _ _ e
    omega

end Aitisa
