import Verif.Proof.Duplicate
import Verif.Proof.Arith
import Verif.Spec.NN

/-! # dropout -/

namespace Aitisa

variable {E : Env} {m : Mem} {R : Foot} {T : TV}

/-- Element `i` after dropout. -/
def dropAt (E : Env) (k : Nat) (line : Int) (c : Code) (xs : List Val) (i : Nat) : Val :=
  if ((E.rand (k + i) % 100 + 1 : Nat) : Int) ≤ line then zeroOf E.fp c else xs.getD i (.int 0)

/-- Memory with another position in the random sequence. -/
def Mem.atR (m : Mem) (k : Nat) : Mem := { m with rtick := k }

theorem run_cRand (E : Env) (m : Mem) (k : Nat) : cRand E (m.atR k) = .ok (E.rand k) (m.atR (k + 1)) := rfl
theorem Mem.atR_blk (m : Mem) (k b : Nat) : (m.atR k).blk b = m.blk b := rfl
theorem Mem.atR_set (m : Mem) (k b : Nat) (x) : (m.atR k).set b x = (m.set b x).atR k := rfl
theorem Mem.atR_self (m : Mem) : m.atR m.rtick = m := rfl

theorem dropoutKernel_run {c : Code} {xs : List Val} {p : Nat} (line : Int)
    (hp : m.blk p = some ⟨.own, .bytes (encAll c xs)⟩) :
    dropoutKernel c (.blk p) (xs.length : Int) line E m =
      .ok () ((m.set p (some ⟨.own, .bytes (encAll c ((List.range xs.length).map (dropAt E m.rtick line c xs)))⟩)).atR
        (m.rtick + xs.length)) := by
  have hl := loopN_fn (E := E) (fun i (_ : Unit) => do
      let r ← cRand
      let fp ← getFp
      if ((r % 100 + 1 : Nat) : Int) ≤ line then storeElem c (.blk p) i (zeroOf fp c) else pure ())
    (fun _ => ())
    (fun i => (m.set p (some ⟨.own, .bytes (encOpt c
      ((List.range i).map (fun i => some (dropAt E m.rtick line c xs i)) ++ (xs.map some).drop i))⟩)).atR
        (m.rtick + i)) xs.length (by
      intro i hi
      have hf := set_fill (fun i => some (dropAt E m.rtick line c xs i)) (xs.map some) i (by simpa using hi)
      rw [← hf]
      msimp [run_cRand]
      by_cases hr : ((E.rand (m.rtick + i) % 100 + 1 : Nat) : Int) ≤ line
      · have : zeroOf E.fp c = dropAt E m.rtick line c xs i := by rw [dropAt, if_pos hr]
        rw [if_pos hr, run_storeElem (c := c) (k := .own) (m := Mem.atR _ _) (by rw [Mem.atR_blk]; exact Mem.set_blk_same _ _ _)
          (by simp; omega), this, Mem.atR_set, Mem.set_set, Nat.add_assoc]
      · have : dropAt E m.rtick line c xs i = xs[i] := by rw [dropAt, if_neg hr]; simp [List.getD, hi]
        rw [if_neg hr, this, List.set_append_right _ _ (by simp)]
        simp only [List.length_map, List.length_range, Nat.sub_self]
        rw [List.drop_eq_getElem_cons (l := xs.map some) (by simpa using hi), List.set_cons_zero]
        simp [run_pure, Nat.add_assoc])
  unfold dropoutKernel forI
  rw [Int.toNat_natCast]
  simp only [List.range_zero, List.map_nil, List.nil_append, List.drop_zero, Nat.add_zero] at hl
  rw [← encAll_eq, Mem.set_self _ _ _ hp, Mem.atR_self] at hl
  rw [hl]
  have : ((List.range xs.length).map fun i => some (dropAt E m.rtick line c xs i)) ++ (xs.map some).drop xs.length =
      ((List.range xs.length).map (dropAt E m.rtick line c xs)).map some := by
    rw [List.drop_of_length_le (by simp), List.append_nil, List.map_map]; rfl
  rw [this, ← encAll_eq]

theorem zeroOf_converts (fp : FloatOps) (c : Code) : Converts fp c (.int 0) (zeroOf fp c) := by
  rw [converts_iff]; cases c <;> simp [zeroOf, cCast, Code.wrap, Code.lo, Code.hi] <;> decide

theorem dropped_list (E : Env) (k : Nat) (line : Int) (c : Code) (xs : List Val) :
    Dropped (fun i => E.rand (k + i)) line (zeroOf E.fp c) xs ((List.range xs.length).map (dropAt E k line c xs)) := by
  refine ⟨by simp, fun i h h' => ?_⟩
  simp only [List.getElem_map, List.getElem_range, dropAt]
  constructor
  · intro hl; rw [if_pos hl]
  · intro hl; rw [if_neg (by omega)]; simp [List.getD, h]

theorem dropAt_wt (E : Env) (k : Nat) (line : Int) {c : Code} {xs : List Val} (h : ∀ x ∈ xs, x.WT c) :
    ∀ y ∈ (List.range xs.length).map (dropAt E k line c xs), y.WT c := by
  intro y hy
  simp only [List.mem_map, List.mem_range] at hy
  obtain ⟨i, hi, rfl⟩ := hy
  unfold dropAt
  split
  · exact zeroOf_WT _ _
  · simp only [List.getD, List.getElem?_eq_getElem hi, Option.getD_some]
    exact h _ (List.getElem_mem hi)

theorem Produces.rtick {m m' : Mem} (P : Produces m m' R T) (k : Nat) : Produces m (m'.atR k) R T where
  ext := { next := P.ext.next, same := P.ext.same, wf := P.ext.wf, live := P.ext.live }
  tensor := P.tensor.congr fun _ _ => rfl
  fresh := P.fresh

theorem dropout_run {c : Code} {xs : List Val} {rate : BitVec 64} {n : Int} (wf : m.WF) (h : At m R T) (he : Elems T c xs)
    (h0 : T.dims ≠ []) (hd : ∀ d ∈ T.dims, 0 < d) (hi : prod T.dims ≤ 2147483647) (hr : RateOK E.fp rate)
    (hn : Percent E.fp rate n) (out : Ptr) :
    (∃ ys k, Dropped (fun i => E.rand (k + i)) n (zeroOf E.fp c) xs ys ∧
      Delivers E (dropout R.h rate out) m out c T.device T.dims ys) ∨
    (¬ E.NoFail ∧ dropout R.h rate out E m = .ub .nullDeref) := by
  have hcond : ¬ (E.fp.lt64 rate (E.fp.ofInt64 0) = true ∨ E.fp.lt64 (E.fp.ofInt64 1) rate = true) := by
    rw [hr.1, hr.2]; simp
  have hline := converts_iff.1 hn
  unfold dropout
  rcases duplicate_run (E := E) wf h he h0 hd hi .indet with (⟨R', m1, e, P⟩ | ⟨m1, e, fr, wf1, nf⟩) | ⟨nf, e⟩
  · left
    have hdata := P.tensor.data
    rw [he.bytes] at hdata
    have hk := dropoutKernel_run (E := E) n hdata
    have hD := dropped_list E m1.rtick n c xs
    have hlen : ((List.range xs.length).map (dropAt E m1.rtick n c xs)).length = prod T.dims := by simp [he.len]
    have hP := (P.setData (bs := encAll c ((List.range xs.length).map (dropAt E m1.rtick n c xs)))
      (by rw [encAll_length, hlen, h.len, he.dtype]; rfl)).rtick (m1.rtick + xs.length)
    rw [show ({ T with bytes := encAll c ((List.range xs.length).map (dropAt E m1.rtick n c xs)) } : TV) =
      ⟨c.dtype, T.device, T.dims, _⟩ from by rw [← he.dtype]] at hP
    refine ⟨_, m1.rtick, hD, .inl ⟨R', _, ?_, hP⟩, ?_, hlen⟩
    · unfold dropoutTemplate
      msimp [hcond, e, P.tensor.tSize, P.tensor.tDtype, he.dtype, find_dtype c, hline, P.tensor.tData]
      rw [← he.len]
      msimp [hk]
    · exact dropAt_wt _ _ _ he.wt
  · left
    refine ⟨_, 0, dropped_list E 0 n c xs, .inr ⟨m1, ?_, fr, wf1, nf⟩, dropAt_wt _ _ _ he.wt, by simp [he.len]⟩
    msimp [hcond, e]
  · right
    refine ⟨nf, ?_⟩
    msimp [hcond, e]

theorem dropout_refuse {rate : BitVec 64} (hr : ¬ RateOK E.fp rate) (out : Ptr) :
    dropout R.h rate out E m = .ok (.invalidArgument, out) m := by
  have hcond : E.fp.lt64 rate (E.fp.ofInt64 0) = true ∨ E.fp.lt64 (E.fp.ofInt64 1) rate = true := by
    unfold RateOK at hr
    cases h1 : E.fp.lt64 rate (E.fp.ofInt64 0) <;> cases h2 : E.fp.lt64 (E.fp.ofInt64 1) rate <;> simp_all
  unfold dropout
  msimp [hcond]

theorem dropout_bad_percent {c : Code} {xs : List Val} {rate : BitVec 64} (nf : E.NoFail) (wf : m.WF) (h : At m R T)
    (he : Elems T c xs) (h0 : T.dims ≠ []) (hd : ∀ d ∈ T.dims, 0 < d) (hi : prod T.dims ≤ 2147483647)
    (hr : RateOK E.fp rate) (hn : ∀ n, ¬ Percent E.fp rate n) (out : Ptr) :
    dropout R.h rate out E m = .ub .badCast := by
  have hcond : ¬ (E.fp.lt64 rate (E.fp.ofInt64 0) = true ∨ E.fp.lt64 (E.fp.ofInt64 1) rate = true) := by
    rw [hr.1, hr.2]; simp
  have hline : cCast E.fp .i32 (.f64 (E.fp.mul64 rate (E.fp.ofInt64 100))) = .error .badCast := by
    unfold Percent at hn
    simp only [converts_iff] at hn
    simp only [cCast] at hn ⊢
    cases ht : E.fp.trunc64 (E.fp.mul64 rate (E.fp.ofInt64 100)) with
    | none => rfl
    | some k =>
      simp only [ht] at hn ⊢
      split
      · rename_i hk; exact absurd (by rw [if_pos hk]) (hn k)
      · rfl
  unfold dropout
  rcases duplicate_run (E := E) wf h he h0 hd hi .indet with (⟨R', m1, e, P⟩ | ⟨m1, e, fr, wf1, nf'⟩) | ⟨nf', e⟩
  · unfold dropoutTemplate
    msimp [hcond, e, P.tensor.tSize, P.tensor.tDtype, hline]
  · exact absurd nf nf'
  · exact absurd nf nf'

end Aitisa
