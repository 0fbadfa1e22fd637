import Verif.Proof.Dot

/-! # Filling the output of a dot product vector by vector -/

namespace Aitisa

variable {E : Env} {m m' m0 m1 mi : Mem} {R R1 R2 Rv : Foot} {T T1 T2 Tv : TV} {c : Code} {xs ys : List Val} {z z0 w : Val} {nK : Nat}
  {L : List Nat} {q N i : Nat} {G : Nat → Option Val}

/-- Everything allocated in `m0`, except block `q`, is as it was. -/
structure Lost (m0 m' : Mem) (q : Nat) : Prop where
  next : m0.next ≤ m'.next
  same : ∀ b, b < m0.next → b ≠ q → m'.blk b = m0.blk b
  wf : m'.WF

/-- ... and block `q` is an array, and nothing new is allocated. -/
structure Fill (m0 m' : Mem) (q : Nat) (c : Code) (N : Nat) (G : Nat → Option Val) : Prop extends Lost m0 m' q where
  data : m'.blk q = some ⟨.own, .bytes (encOpt c (tab N G))⟩
  clean : ∀ b, m0.next ≤ b → m'.blk b = none

theorem Lost.at (F : Lost m0 m' q) (wf : m0.WF) (h : At m0 R T) (hq : q ∉ R.list) : At m' R T :=
  h.congr fun b hb => F.same b (h.lt wf hb) (by rintro rfl; exact hq hb)

theorem Lost.frame (F : Lost m0 m1 q) (f : Frame m1 m') (wf : m'.WF) : Lost m0 m' q where
  next := Nat.le_trans F.next f.next
  same b hb hq := by rw [f.same b (Nat.lt_of_lt_of_le hb F.next), F.same b hb hq]
  wf := wf

theorem Lost.trans (F : Lost m0 m1 q) (f : Lost m1 m' q) : Lost m0 m' q where
  next := Nat.le_trans F.next f.next
  same b hb hq := by rw [f.same b (Nat.lt_of_lt_of_le hb F.next) hq, F.same b hb hq]
  wf := f.wf

/-! ### Copying one element -/

theorem memcpyAt_run {p : Nat} (hs : m.blk p = some ⟨.own, .bytes (encAll c [w])⟩)
    (hd : m.blk q = some ⟨.own, .bytes (encOpt c (tab N G))⟩) (hi : i < N) :
    memcpyAt (.blk q) ((i * c.size : Nat) : Int) (.blk p) c.size E m = .ok () (m.arr q c N (upd G i (some w))) := by
  have hw := wrElem_cell (c := c) (os := tab N G) (i := i) (by rw [tab_length]; exact hi) w
  have hl1 : (encAll c [w]).length = c.size := by simp [encAll, encVal_length]
  have hl2 : (encOpt c (tab N G)).length = N * c.size := by rw [encOpt_length, tab_length]
  have hle : (i + 1) * c.size ≤ N * c.size := Nat.mul_le_mul_right _ hi
  rw [Nat.succ_mul] at hle
  unfold wrElem at hw
  rw [if_pos ⟨by omega, by rw [hl2, Int.add_mul, Int.one_mul, ← Int.natCast_mul]; omega⟩] at hw
  unfold memcpyAt
  msimp [run_derefB hs, run_derefB hd]
  rw [if_pos ⟨by omega, by omega, by rw [hl2]; omega⟩, run_putBody hd]
  have htake : (encAll c [w]).take c.size = (encVal c w).map some := by
    rw [List.take_of_length_le (by omega)]; simp [encAll]
  rw [htake, show (((i * c.size : Nat) : Int)).toNat = i * c.size by omega]
  rw [Int.toNat_natCast] at hw
  injection hw with hw
  rw [hw, tab_set (H := upd G i (some w)) (fun j _ => rfl)]
  rfl

/-- Outcomes of the computation of one element. -/
def CellRuns (E : Env) (x : M (Status × Ptr)) (m : Mem) (q : Nat) (c : Code) (N : Nat) (G : Nat → Option Val) (i : Nat) (w : Val) : Prop :=
  (∃ R T mz, x E m = .ok (.success, R.h) (mz.arr q c N (upd G i (some w))) ∧ Produces m mz R T) ∨
  (¬ E.NoFail ∧ ∃ out m', x E m = .ok (.allocFailed, out) m' ∧ Frame m m' ∧ m'.WF)

theorem dotCell_run (wf : m.WF) (h1 : At m R1 T1) (he1 : Elems T1 c xs) (h2 : At m R2 T2) (he2 : Elems T2 c ys)
    (hz0 : ZeroOf E.fp c z0) (hz : cCast E.fp c (.int 0) = .ok z) (s1 : T1.dims = [nK]) (s2 : T2.dims = [nK])
    (hK : nK ≤ 2147483647) (hd : m.blk q = some ⟨.own, .bytes (encOpt c (tab N G))⟩) (hi : i < N) {off : M Int}
    (ho : ∀ m', off E m' = .ok ((i * c.size : Nat) : Int) m')
    (hdot : dotRun E.fp c z ((List.range nK).map fun q => (xs.getD q (.int 0), ys.getD q (.int 0))) = .ok w) :
    CellRuns E (dotCell R1.h R2.h (.blk q) c.size off) m q c N G i w := by
  have hs : ShapeOK [1] c.size := by
    refine ⟨?_, by simp⟩
    cases c <;> decide
  rcases (vecDot_run wf h1 he1 h2 he2 hz0 hz s1 s2 hK hs hdot .indet).creates with ⟨R, mz, e, P⟩ | ⟨m', e, f, wf', nf⟩
  · left
    refine ⟨R, _, mz, ?_, P⟩
    unfold dotCell
    have hd' : mz.blk q = some ⟨.own, .bytes (encOpt c (tab N G))⟩ := by rw [P.ext.same q (Frame.lt_next wf hd), hd]
    msimp [e, P.tensor.tData, ho, memcpyAt_run (E := E) P.tensor.data hd' hi]
  · right
    refine ⟨nf, .indet, m', ?_, f, wf'⟩
    unfold dotCell
    msimp [e]

/-! ### One vector -/

/-- The first `n` values are known. -/
def upTo (W : Nat → Val) (n : Nat) : Nat → Option Val := fun k => if k < n then some (W k) else none

theorem upTo_succ (W : Nat → Val) (n : Nat) : upd (upTo W n) n (some (W n)) = upTo W (n + 1) := by
  funext k
  unfold upd upTo
  by_cases h : k = n
  · subst h; simp
  · simp only [h, if_false]
    by_cases h' : k < n
    · rw [if_pos h', if_pos (by omega)]
    · rw [if_neg h', if_neg (by omega)]

/-- Outcomes of a step or a loop that was cut short. -/
def Cut {σ : Type} (E : Env) (m0 : Mem) (q : Nat) (r : Res (σ ⊕ Status)) : Prop :=
  ¬ E.NoFail ∧ ((∃ m', r = .ok (.inr .allocFailed) m' ∧ Lost m0 m' q) ∨ r = .ub .nullDeref)

/-- Release of a tensor produced after a fill. -/
theorem Fill.release (F : Fill m0 mi q c N G) (P : Produces mi m1 R T) (F1 : Fill m1 m' q c N G') (hq : q < m0.next) :
    destroy R.h E m' = .ok (.success, .null) (m'.drop R.list) ∧ Fill m0 (m'.drop R.list) q c N G' := by
  have hqR : q ∉ R.list := fun h => by have := P.fresh q h; have := F.next; omega
  refine ⟨destroy_run (F1.at P.ext.wf P.tensor hqR), ?_⟩
  have hn := P.ext.next
  refine ⟨⟨?_, ?_, F1.wf.drop _⟩, ?_, ?_⟩
  · have := F.next; have := F1.next; simp [Mem.drop]; omega
  · intro b hb hbq
    have := F.next
    rw [Mem.drop_blk, if_neg (fun h => by have := P.fresh b h; omega), F1.same b (by omega) hbq, P.ext.same b (by omega), F.same b hb hbq]
  · rw [Mem.drop_blk, if_neg hqR, F1.data]
  · intro b hb
    rw [Mem.drop_blk]
    split
    · rfl
    · rename_i hbR
      by_cases h1 : m1.next ≤ b
      · exact F1.clean b h1
      · rw [F1.same b (by omega) (by omega)]
        by_cases h2 : mi.next ≤ b
        · exact Classical.not_not.1 fun hn => hbR (P.ext.live b h2 hn)
        · rw [P.ext.same b (by omega), F.clean b hb]

theorem Fill.refl (wf : m.WF) (hd : m.blk q = some ⟨.own, .bytes (encOpt c (tab N G))⟩) : Fill m m q c N G :=
  ⟨⟨Nat.le_refl _, fun _ _ _ => rfl, wf⟩, hd, wf⟩

theorem Fill.put (F : Fill m0 m1 q c N G) (hq : q < m0.next) (G' : Nat → Option Val) : Fill m0 (m1.arr q c N G') q c N G' := by
  refine ⟨⟨F.next, ?_, ?_⟩, by simp [Mem.arr], ?_⟩
  · intro b hb hbq
    unfold Mem.arr; rw [Mem.set_blk_ne _ _ hbq, F.same b hb hbq]
  · intro b hb
    have := F.next
    have hb' : m1.next ≤ b := hb
    unfold Mem.arr; rw [Mem.set_blk_ne _ _ (by omega), F.wf b hb]
  · intro b hb
    unfold Mem.arr; rw [Mem.set_blk_ne _ _ (by omega), F.clean b hb]

theorem dotStep_run {a b : List Nat} {K : Nat} {cell : Ptr → M (Status × Ptr)} (wf : m0.WF) (h : At m0 R T) (he : Elems T c xs)
    (hq : q < m0.next) (hqR : q ∉ R.list) (hs : T.dims = a ++ K :: b) {j : Nat}
    (hj : j < prod a * prod b) (hn : prod a * prod b ≤ 2147483647) (h0 : 0 < K) (hK : K ≤ 2147483647)
    (F : Fill m0 mi q c N G)
    (hc : ∀ Ry my, Produces mi my Ry ⟨c.dtype, T.device, [K], encAll c (vecAt a K b xs j)⟩ → CellRuns E (cell Ry.h) my q c N G i w) :
    (∃ m', dotStep (vecsOf R.h (ints T.dims) a.length) cell (ints (vecIdx a b j)) E mi =
        .ok (.inl (ints (vecIdx a b (if j + 1 < prod a * prod b then j + 1 else 0)))) m' ∧ Fill m0 m' q c N (upd G i (some w))) ∨
    Cut E m0 q (dotStep (vecsOf R.h (ints T.dims) a.length) cell (ints (vecIdx a b j)) E mi) := by
  unfold dotStep
  rcases vecGet_run (E := E) F.wf (F.at wf h hqR) he hs hj hn h0 hK with ⟨Ry, my, ey, Py⟩ | ⟨nf, ⟨o, m', e, f, wf'⟩ | e⟩
  · rcases hc Ry my Py with ⟨Rr, Tr, mz, er, Pr⟩ | ⟨nf, o, m', e, f, wf'⟩
    · left
      have hqy : q < my.next := by have := F.next; have := Py.ext.next; omega
      have hd : my.blk q = some ⟨.own, .bytes (encOpt c (tab N G))⟩ := by
        rw [Py.ext.same q (by have := F.next; omega), F.data]
      obtain ⟨G', hG'⟩ : ∃ G', G' = upd G i (some w) := ⟨_, rfl⟩
      rw [← hG'] at er ⊢
      -- release the slice first, then the result
      have hqr : q ∉ Rr.list := fun h => by have := Pr.fresh q h; omega
      have hqyy : q ∉ Ry.list := fun h => by have := Py.fresh q h; have := F.next; omega
      have ay : At (mz.arr q c N G') Ry _ := ((Py.tensor.frame Py.ext.wf Pr.ext.toFrame)).set_ne hqyy _
      have ar : At (mz.arr q c N G') Rr Tr := Pr.tensor.set_ne hqr _
      have d1 := destroy_run (E := E) ay
      have ar' : At ((mz.arr q c N G').drop Ry.list) Rr Tr := ar.drop_ne fun b hb hb' => by
        have := Pr.fresh b hb; have := Py.tensor.lt Py.ext.wf hb'; omega
      have d2 := destroy_run (E := E) ar'
      refine ⟨((mz.arr q c N G').drop Ry.list).drop Rr.list, ?_, ?_⟩
      · msimp [ey, er, d1, d2]
        rw [hs, vecNext hj _ hK]
      · have hp := Pr.ext.next
        have hp' := Py.ext.next
        have hf := F.next
        refine ⟨⟨?_, ?_, ?_⟩, ?_, ?_⟩
        · show m0.next ≤ mz.next
          omega
        · intro b hb hbq
          rw [Mem.drop_blk, if_neg (fun h => by have := Pr.fresh b h; omega), Mem.drop_blk,
            if_neg (fun h => by have := Py.fresh b h; omega)]
          unfold Mem.arr
          rw [Mem.set_blk_ne _ _ hbq, Pr.ext.same b (by omega), Py.ext.same b (by omega), F.same b hb hbq]
        · apply Mem.WF.drop; apply Mem.WF.drop
          intro b hb
          have hb' : mz.next ≤ b := hb
          unfold Mem.arr; rw [Mem.set_blk_ne _ _ (by omega), Pr.ext.wf b hb]
        · rw [Mem.drop_blk, if_neg hqr, Mem.drop_blk, if_neg hqyy]
          simp [Mem.arr]
        · intro b hb
          rw [Mem.drop_blk]
          split
          · rfl
          · rename_i hbr
            rw [Mem.drop_blk]
            split
            · rfl
            · rename_i hby
              unfold Mem.arr
              rw [Mem.set_blk_ne _ _ (by omega)]
              by_cases g1 : my.next ≤ b
              · exact Classical.not_not.1 fun hn => hbr (Pr.ext.live b g1 hn)
              · rw [Pr.ext.same b (by omega)]
                by_cases g2 : mi.next ≤ b
                · exact Classical.not_not.1 fun hn => hby (Py.ext.live b g2 hn)
                · rw [Py.ext.same b (by omega), F.clean b hb]
    · right
      refine ⟨nf, .inl ⟨m', ?_, (F.toLost.frame Py.ext.toFrame Py.ext.wf).frame f wf'⟩⟩
      msimp [ey, e]
  · right
    refine ⟨nf, .inl ⟨m', ?_, F.toLost.frame f wf'⟩⟩
    msimp [e]
  · right
    refine ⟨nf, .inr ?_⟩
    msimp [e]

/-! ### Loops that can be cut short -/

theorem loopE_cut {σ : Type} (f : Nat → σ → M (σ ⊕ Status)) (Inv : Nat → σ → Mem → Prop) (n : Nat)
    (step : ∀ i s m, i < n → Inv i s m → (∃ s' m', f i s E m = .ok (.inl s') m' ∧ Inv (i + 1) s' m') ∨ Cut E m0 q (f i s E m))
    {s : σ} {m : Mem} (h0 : Inv 0 s m) :
    (∃ s' m', loopE f n 0 s E m = .ok (.inl s') m' ∧ Inv n s' m') ∨ Cut E m0 q (loopE f n 0 s E m) := by
  suffices H : ∀ k i s m, i + k = n → Inv i s m →
      (∃ s' m', loopE f k i s E m = .ok (.inl s') m' ∧ Inv n s' m') ∨ Cut E m0 q (loopE f k i s E m) from H n 0 s m (by omega) h0
  intro k
  induction k with
  | zero => intro i s m hi h; exact .inl ⟨s, m, rfl, by simpa using (by omega : i = n) ▸ h⟩
  | succ k ih =>
    intro i s m hi h
    rcases step i s m (by omega) h with ⟨s', m', e, h'⟩ | ⟨nf, ⟨m', e, l⟩ | e⟩
    · rcases ih (i + 1) s' m' (by omega) h' with ⟨s'', m'', e', h''⟩ | hc
      · exact .inl ⟨s'', m'', by rw [loopE_succ, e]; exact e', h''⟩
      · right
        rw [loopE_succ, e]; exact hc
    · exact .inr ⟨nf, .inl ⟨m', by rw [loopE_succ, e]; rfl, l⟩⟩
    · exact .inr ⟨nf, .inr (by rw [loopE_succ, e]; rfl)⟩

end Aitisa
