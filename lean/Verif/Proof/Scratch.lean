import Verif.Model.Conv
import Verif.Proof.PoolingTop

/-! # Any number of scratch arrays -/

namespace Aitisa

variable {E : Env} {m m1 mD : Mem} {n : Nat} {L l : List (Ptr × List Nat)} {D : List Nat}

/-- Scratch arrays of `n` bytes each, some of which may be null; each is a pointer with its block. -/
structure Many (E : Env) (m m1 : Mem) (n : Nat) (L : List (Ptr × List Nat)) : Prop where
  ext : Ext m m1 (L.flatMap Prod.snd)
  bound : ∀ k ∈ L.flatMap Prod.snd, m.next ≤ k ∧ k < m1.next
  temp : ∀ x ∈ L, Temp m1 x.1 x.2 n
  null : ∀ x ∈ L, x.1 = .null → ¬ E.NoFail
  nodup : (L.flatMap Prod.snd).Nodup

theorem Many.nil (wf : m.WF) : Many E m m n [] :=
  ⟨Ext.refl wf, by simp, by simp, by simp, by simp⟩

theorem Many.scratch (S : Many E m m1 (8 * n) L) (hn : n ≤ 2147483647) :
    ∃ p K m2, scratch n 8 E m1 = .ok p m2 ∧ Many E m m2 (8 * n) ((p, K) :: L) := by
  have hsz : toSizeT ((8 : Nat) * (n : Int)) = 8 * n := by unfold toSizeT; omega
  obtain ⟨p, m2, K, e, x, t, k, nu, f⟩ := S.ext.scratch (E := E) n 8
  rw [hsz] at t
  have h1 := S.ext.next
  have h2 := f.next
  refine ⟨p, K, m2, e, ⟨by simpa using x, ?_, ?_, ?_, ?_⟩⟩
  · intro j hj
    simp only [List.flatMap_cons, List.mem_append] at hj
    rcases hj with h | h
    · have := k j h; omega
    · have := S.bound j h; omega
  · intro y hy
    rcases List.mem_cons.1 hy with rfl | hy
    · exact t
    · exact (S.temp y hy).congr fun j hj => f.same j (S.bound j (List.mem_flatMap.2 ⟨y, hy, hj⟩)).2
  · intro y hy
    rcases List.mem_cons.1 hy with rfl | hy
    · exact nu
    · exact S.null y hy
  · simp only [List.flatMap_cons, List.nodup_append]
    refine ⟨t.nodup, S.nodup, fun u hu v hv => ?_⟩
    have := (k u hu).1
    have := (S.bound v hv).2
    omega

theorem rawFrees_run (ht : ∀ x ∈ l, Temp mD x.1 x.2 n) (nd : (l.flatMap Prod.snd).Nodup) (hd : ∀ k ∈ l.flatMap Prod.snd, k ∉ D) :
    ∃ Z, rawFrees (l.map Prod.fst) E (mD.drop D) = .ok () (mD.drop Z) ∧ ∀ k, k ∈ Z ↔ k ∈ l.flatMap Prod.snd ∨ k ∈ D := by
  induction l generalizing D with
  | nil => exact ⟨D, rfl, by simp⟩
  | cons x l ih =>
    simp only [List.flatMap_cons, List.nodup_append] at nd
    have hx := (ht x (by simp)).free (E := E) (D := D) fun k hk => hd k (by simp [hk])
    obtain ⟨Z, e, hZ⟩ := ih (D := x.2 ++ D) (fun y hy => ht y (by simp [hy])) nd.2.1 fun k hk => by
      simp only [List.mem_append, not_or]
      exact ⟨fun h => nd.2.2 k h k hk rfl, hd k (by simp only [List.flatMap_cons, List.mem_append]; exact .inr hk)⟩
    refine ⟨Z, ?_, fun k => ?_⟩
    · simp only [List.map_cons, rawFrees]
      msimp [hx]
      exact e
    · rw [hZ]
      simp only [List.flatMap_cons, List.mem_append]
      constructor
      · rintro (h | h | h) <;> simp [h]
      · rintro ((h | h) | h) <;> simp [h]

/-- All of them are released, in any order. -/
theorem Many.free (S : Many E m m1 n L) (hs : ∀ k ∈ L.flatMap Prod.snd, mD.blk k = m1.blk k) (hl : l.Perm L) :
    ∃ Z, rawFrees (l.map Prod.fst) E mD = .ok () (mD.drop Z) ∧ (∀ k ∈ L.flatMap Prod.snd, k ∈ Z) ∧ ∀ k ∈ Z, k ∈ L.flatMap Prod.snd := by
  have hp : (l.flatMap Prod.snd).Perm (L.flatMap Prod.snd) := hl.flatMap_right _
  obtain ⟨Z, e, hZ⟩ := rawFrees_run (E := E) (mD := mD) (n := n) (l := l) (D := []) (fun x hx =>
    (S.temp x (hl.mem_iff.1 hx)).congr fun k hk => hs k (List.mem_flatMap.2 ⟨x, hl.mem_iff.1 hx, hk⟩))
    (hp.nodup_iff.2 S.nodup) (by simp)
  rw [show mD.drop [] = mD from by simp [Mem.drop]] at e
  refine ⟨Z, e, fun k hk => (hZ k).2 (.inl (hp.mem_iff.2 hk)), fun k hk => ?_⟩
  have := (hZ k).1 hk
  simp only [List.not_mem_nil, or_false] at this
  exact hp.mem_iff.1 this

end Aitisa
