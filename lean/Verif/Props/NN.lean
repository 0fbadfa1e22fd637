import Verif.Proof.SoftmaxTop
import Verif.Proof.Dropout
import Verif.Spec.Example

/-!
# Properties C37, C43: softmax and dropout
-/

namespace Aitisa

/-! ## C37 -/

/-- C37. Along axis `a`: if `es` are the exponentials of the elements (converted to the element type) and `ys` the
quotients of each by the sum of its line along the axis (converted likewise), softmax attempts a tensor of the same
dtype, device and dims with elements `ys`. The element count must be below `2^62`. -/
theorem C37_axis {E : Env} {m : Mem} {R : Foot} {T : TV} {c : Code} {xs es ys : List Val} {a : Nat} (wf : m.WF)
    (h : At m R T) (he : Elems T c xs) (ha : a < T.dims.length) (hsz : prod T.dims < 4611686018427387904)
    (hes : Pointwise (ExpOf E.fp c) xs es) (hy : ys.length = xs.length)
    (hys : ∀ cs, InRange T.dims cs → ShareOf E.fp c (lineAt T.dims a es cs) (elemAt T.dims es cs) (elemAt T.dims ys cs))
    (out : Ptr) : Tries E (softmax R.h a out) m ⟨T.dtype, T.device, T.dims, encAll c ys⟩ :=
  softmax_axis wf h he ha hsz hes hy hys out

/-- C37. Axis `-1`: the sum is over all elements. -/
theorem C37_all {E : Env} {m : Mem} {R : Foot} {T : TV} {c : Code} {xs es ys : List Val} (wf : m.WF) (h : At m R T)
    (he : Elems T c xs) (hes : Pointwise (ExpOf E.fp c) xs es) (hys : Pointwise (ShareOf E.fp c es) es ys) (out : Ptr) :
    Tries E (softmax R.h (-1) out) m ⟨T.dtype, T.device, T.dims, encAll c ys⟩ :=
  softmax_all wf h he hes hys out

/-- C37. Any other axis is refused without effect. -/
theorem C37_refused {E : Env} {m : Mem} {R : Foot} {T : TV} (h : At m R T) {axis : Int}
    (ha : axis < -1 ∨ (T.dims.length : Int) ≤ axis) (out : Ptr) :
    softmax R.h axis out E m = .ok (.notSupported, out) m :=
  softmax_refuse h ha out

/-- The line through a position contains the element at that position: coordinates inside the shape with the axis
coordinate replaced stay inside the shape. -/
theorem C37_line {ds : List Nat} {a : Nat} {es : List Val} {cs : List Nat} (ha : a < ds.length) (hc : InRange ds cs) :
    (lineAt ds a es cs).length = ds[a] ∧ (lineAt ds a es cs)[cs.getD a 0]? = some (elemAt ds es cs) := by
  have hci := inRange_iff.1 hc
  have hl : a < cs.length := by rw [hci.1]; exact ha
  have hlt := hci.2 a hl ha
  refine ⟨by simp [lineAt, List.getD, ha], ?_⟩
  unfold lineAt
  rw [List.getElem?_map, List.getElem?_range (by simpa [List.getD, ha, hl] using hlt)]
  have : cs.set a (cs.getD a 0) = cs := by
    simp [List.getD, hl]
  simp only [Option.map_some, this]

/-- A 2x2 tensor of `double`s (in the toy arithmetic of `toyFp` these are the numbers 3, -1, -1, 6, and `exp x` is
`x + 1`, or 0 for a negative `x`). -/
def exSm : TV := tvOf .f64 [2, 2] ([3, -1, -1, 6].map .f64)

theorem exSm_at : At (Mem.empty.addT exSm) Mem.empty.footT exSm :=
  tvOf_at _ (by simp) rfl ⟨by decide, by decide⟩

theorem exSm_elems : Elems exSm .f64 ([3, -1, -1, 6].map .f64) := tvOf_elems (by decide) rfl

theorem exSm_exp : Pointwise (ExpOf okEnv.fp .f64) (([3, -1, -1, 6] : List (BitVec 64)).map .f64) ([4, 0, 0, 7].map .f64) := by
  refine ⟨rfl, fun i h h' => ?_⟩
  rw [expOf_iff]
  have : i < 4 := h
  match i, this with
  | 0, _ => decide +revert
  | 1, _ => decide +revert
  | 2, _ => decide +revert
  | 3, _ => decide +revert

/-- Along axis 0 the column sums are 4 and 7, the quotients 1, 0, 0, 1. -/
example : Tries okEnv (softmax Mem.empty.footT.h 0 .indet) (Mem.empty.addT exSm)
    (tvOf .f64 [2, 2] ([1, 0, 0, 1].map .f64)) :=
  C37_axis (a := 0) (ys := [1, 0, 0, 1].map .f64) (Mem.addT_wf Mem.empty_wf _) exSm_at exSm_elems (by decide) (by decide) exSm_exp rfl
    (by
      intro cs hc
      have hc : InRange [2, 2] cs := hc
      match cs, hc with
      | [i, j], ⟨h1, h2, _⟩ =>
        rw [shareOf_iff]
        match i, j, h1, h2 with
        | 0, 0, _, _ => decide
        | 0, 1, _, _ => decide
        | 1, 0, _, _ => decide
        | 1, 1, _, _ => decide) .indet

/-- Over all elements the sum is 11 and the quotients (integer division in the toy arithmetic) are 0. -/
example : Tries okEnv (softmax Mem.empty.footT.h (-1) .indet) (Mem.empty.addT exSm)
    (tvOf .f64 [2, 2] ([0, 0, 0, 0].map .f64)) :=
  C37_all (Mem.addT_wf Mem.empty_wf _) exSm_at exSm_elems exSm_exp
    (by
      refine ⟨rfl, fun i h h' => ?_⟩
      rw [shareOf_iff]
      have : i < 4 := h
      match i, this with
      | 0, _ => decide +revert
      | 1, _ => decide +revert
      | 2, _ => decide +revert
      | 3, _ => decide +revert) .indet

example : softmax Mem.empty.footT.h 2 .indet okEnv (Mem.empty.addT exSm) = .ok (.notSupported, .indet) (Mem.empty.addT exSm) :=
  C37_refused exSm_at (by decide) .indet

/-! ## C43 -/

/-- C43. For a tensor that can be duplicated (see C24), a rate accepted by the check, with truncated percentage `n`: dropout
delivers a tensor in which, for some starting point of the random stream, each element is zeroed if its random number in
1..100 is at most `n` and kept otherwise. (If the allocator fails a null pointer may be dereferenced.) -/
theorem C43_dropout {E : Env} {m : Mem} {R : Foot} {T : TV} {c : Code} {xs : List Val} {rate : BitVec 64} {n : Int}
    (wf : m.WF) (h : At m R T) (he : Elems T c xs)
    (h0 : T.dims ≠ []) (hd : ∀ d ∈ T.dims, 0 < d) (hi : prod T.dims ≤ 2147483647) (hr : RateOK E.fp rate)
    (hn : Percent E.fp rate n) (out : Ptr) :
    (∃ ys k z, Converts E.fp c (.int 0) z ∧ Dropped (fun i => E.rand (k + i)) n z xs ys ∧
      Delivers E (dropout R.h rate out) m out c T.device T.dims ys) ∨
    (¬ E.NoFail ∧ dropout R.h rate out E m = .ub .nullDeref) := by
  rcases dropout_run wf h he h0 hd hi hr hn out with ⟨ys, k, hD, hO⟩ | h
  · exact .inl ⟨ys, k, _, zeroOf_converts _ _, hD, hO⟩
  · exact .inr h

/-- C43. Each element is kept or zeroed. -/
theorem C43_keep_or_zero {rnd : Nat → Nat} {line : Int} {z : Val} {xs ys : List Val} (h : Dropped rnd line z xs ys) :
    Pointwise (fun x y => y = x ∨ y = z) xs ys := by
  refine ⟨h.1.symm, fun i h1 h2 => ?_⟩
  obtain ⟨a, b⟩ := h.2 i h1 h2
  rcases Int.lt_or_le line ((rnd i % 100 + 1 : Nat) : Int) with hl | hl
  · exact .inl (b hl)
  · exact .inr (a hl)

/-- C43. If the percentage truncates to 0, all elements are kept. -/
theorem C43_none {rnd : Nat → Nat} {line : Int} {z : Val} {xs ys : List Val} (h : Dropped rnd line z xs ys) (hl : line ≤ 0) :
    ys = xs :=
  List.ext_getElem h.1 fun i h1 h2 => (h.2 i h2 h1).2 (by omega)

/-- C43. If the percentage reaches 100, all elements are zeroed. -/
theorem C43_all {rnd : Nat → Nat} {line : Int} {z : Val} {xs ys : List Val} (h : Dropped rnd line z xs ys) (hl : 100 ≤ line) :
    ys = List.replicate xs.length z :=
  List.ext_getElem (by simp [h.1]) fun i h1 h2 => by
    rw [(h.2 i (by simpa using h2) h1).1 (by have := Nat.mod_lt (rnd i) (show 0 < 100 by decide); omega),
      List.getElem_replicate]

/-- C43. A rate below 0 or above 1 is refused without effect. -/
theorem C43_refused {E : Env} {m : Mem} {R : Foot} {rate : BitVec 64} (hr : ¬ RateOK E.fp rate) (out : Ptr) :
    dropout R.h rate out E m = .ok (.invalidArgument, out) m :=
  dropout_refuse hr out

/-- C43, limit: a rate that passes the check although its percentage has no `int` value (a NaN) is undefined behaviour. -/
theorem C43_nan {E : Env} (nf : E.NoFail) {m : Mem} {R : Foot} {T : TV} {c : Code} {xs : List Val} {rate : BitVec 64}
    (wf : m.WF) (h : At m R T)
    (he : Elems T c xs) (h0 : T.dims ≠ []) (hd : ∀ d ∈ T.dims, 0 < d) (hi : prod T.dims ≤ 2147483647)
    (hr : RateOK E.fp rate) (hn : ∀ n, ¬ Percent E.fp rate n) (out : Ptr) :
    dropout R.h rate out E m = .ub .badCast :=
  dropout_bad_percent nf wf h he h0 hd hi hr hn out

/-- Rate 1 (100 percent) in the toy arithmetic: all elements become 0. -/
example : ∃ R' m', dropout Mem.empty.footT.h 1 .indet okEnv (Mem.empty.addT exSm) = .ok (.success, R'.h) m' ∧
    At m' R' (tvOf .f64 [2, 2] ([0, 0, 0, 0].map .f64)) := by
  rcases C43_dropout (E := okEnv) (rate := 1) (n := 100) (Mem.addT_wf Mem.empty_wf _) exSm_at exSm_elems (by decide) (by decide)
    (by decide) ⟨by decide, by decide⟩ (by unfold Percent; rw [converts_iff]; decide) .indet with
    ⟨ys, k, z, hz, hD, (⟨R', m', e, P⟩ | ⟨_, _, _, _, nf⟩), _⟩ | ⟨nf, _⟩
  · have hz' : z = .f64 0 := by
      rw [converts_iff] at hz
      have : cCast okEnv.fp .f64 (.int 0) = .ok (.f64 0) := by decide
      rw [this] at hz
      exact (Except.ok.inj hz).symm
    have hys := C43_all hD (by decide)
    rw [hz'] at hys
    subst hys
    exact ⟨R', m', e, P.tensor⟩
  · exact absurd okEnv_noFail nf
  · exact absurd okEnv_noFail nf

example : dropout Mem.empty.footT.h 2 .indet okEnv (Mem.empty.addT exSm) = .ok (.invalidArgument, .indet) (Mem.empty.addT exSm) :=
  C43_refused (by unfold RateOK; decide) .indet

/-- An environment with a NaN: it compares false with everything and has no integer value. -/
def nanEnv : Env := { okEnv with fp := { toyFp with
  lt64 := fun a b => a != 0x7ff8000000000000 && b != 0x7ff8000000000000 && BitVec.slt a b
  mul64 := fun a b => if a = 0x7ff8000000000000 then a else a * b
  trunc64 := fun a => if a = 0x7ff8000000000000 then none else some a.toInt } }

example : dropout Mem.empty.footT.h 0x7ff8000000000000 .indet nanEnv (Mem.empty.addT exSm) = .ub .badCast :=
  C43_nan (E := nanEnv) (fun _ _ => rfl) (Mem.addT_wf Mem.empty_wf _) exSm_at exSm_elems (by decide) (by decide)
    (by decide) ⟨by decide, by decide⟩ (by
      intro n
      unfold Percent
      rw [converts_iff]
      have : cCast nanEnv.fp .i32 (.f64 (nanEnv.fp.mul64 0x7ff8000000000000 (nanEnv.fp.ofInt64 100))) = .error .badCast := by decide
      rw [this]
      simp) .indet

end Aitisa
