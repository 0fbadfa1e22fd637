import Verif.Proof.Invalid
import Verif.Spec.Example

/-!
# Property C74: indices that do not exist

What `aitisa_coords_to_linidx`, `aitisa_coords_to_offset`, `aitisa_linidx_to_coords`, `aitisa_offset_to_coords`
and `aitisa_get_stride` do with arguments that name no element: exactly the builds with assertions stop.
-/

namespace Aitisa

variable {E : Env} {m : Mem} {R : Foot} {T : TV}

theorem Names.nats {ds : List Nat} {cs : List Int} (h : Names ds cs) :
    InRange ds (cs.map Int.toNat) ∧ dimsCells (cs.map Int.toNat) = Arr.of cs ∧
      (lin ds (cs.map Int.toNat) : Int) = reach ds cs := by
  induction ds generalizing cs with
  | nil =>
    have : cs = [] := List.length_eq_zero_iff.1 h.1
    subst this; exact ⟨trivial, rfl, rfl⟩
  | cons d ds ih =>
    cases cs with
    | nil => have := h.1; simp at this
    | cons c cs =>
      have h0 := h.2 0 (by simp) (by simp)
      simp only [List.getElem_cons_zero] at h0
      have ht : Names ds cs := ⟨by simpa using h.1, fun k h1 h2 => by
        have := h.2 (k + 1) (by simpa using h1) (by simpa using h2)
        simpa using this⟩
      obtain ⟨i1, i2, i3⟩ := ih ht
      refine ⟨⟨by omega, i1⟩, ?_, ?_⟩
      · simp only [dimsCells, Arr.of, List.map_cons] at i2 ⊢
        rw [i2]; congr 2; omega
      · simp only [List.map_cons, lin, reach, ← i3]
        rw [Int.natCast_add, Int.natCast_mul, Int.toNat_of_nonneg h0.1]

/-- C74. In a build with assertions the two functions that turn coordinates into a position answer, with the
row-major position, if the coordinates name an element and `len` is the rank; otherwise the program stops. -/
theorem C74_coords_checked (ha : E.asserts = true) (h : At m R T) (cs : List Int)
    (hl : cs.length = T.dims.length) (len : Int) :
    (len = T.dims.length ∧ Names T.dims cs → coordsToLinidx R.h (Arr.of cs) len E m = .ok (reach T.dims cs) m ∧
      coordsToOffset R.h (Arr.of cs) len E m = .ok (reach T.dims cs) m) ∧
    (¬ (len = T.dims.length ∧ Names T.dims cs) → coordsToLinidx R.h (Arr.of cs) len E m = .abort ∧
      coordsToOffset R.h (Arr.of cs) len E m = .abort) := by
  constructor
  · rintro ⟨rfl, hn⟩
    obtain ⟨h1, h2, h3⟩ := hn.nats
    rw [← h2, ← h3]
    exact ⟨coordsToLinidx_run h h1, coordsToOffset_run h h1⟩
  · intro hn
    have hb : len ≠ T.dims.length ∨ ¬ Names T.dims cs := by
      by_cases hx : len = T.dims.length
      · exact Or.inr fun hy => hn ⟨hx, hy⟩
      · exact Or.inl hx
    exact ⟨coordsToLinidx_fails h ha hl hb, coordsToOffset_fails h ha hl hb⟩

/-- C74. In a build with assertions the two functions that turn a position into coordinates stop the program if
there is no such position; so for a tensor without elements they always do. -/
theorem C74_position_checked (ha : E.asserts = true) (h : At m R T) (i : Int)
    (hi : ¬ (0 ≤ i ∧ i < (prod T.dims : Int))) (buf : Arr) :
    linidxToCoords R.h i buf E m = .abort ∧ offsetToCoords R.h i buf E m = .abort :=
  ⟨linidxToCoords_fails h ha (by omega), offsetToCoords_fails h ha (by omega)⟩

/-- C74. In a build without assertions coordinates are never refused and `len` is not looked at: any integers,
also negative ones, give the sum of coordinate times stride (as long as that fits 64 bits). -/
theorem C74_coords_unchecked (ha : E.asserts = false) (h : At m R T) (cs : List Int)
    (hl : cs.length = T.dims.length) (hb : reachAbs T.dims cs ≤ 9223372036854775807) (len : Int) :
    coordsToLinidx R.h (Arr.of cs) len E m = .ok (reach T.dims cs) m ∧
      coordsToOffset R.h (Arr.of cs) len E m = .ok (reach T.dims cs) m :=
  ⟨coordsToLinidx_off h ha hl hb, coordsToOffset_off h ha hl hb⟩

/-- C74. In a build without assertions a position at or beyond the end is taken modulo the size: it gives the
coordinates of another element. -/
theorem C74_position_unchecked (ha : E.asserts = false) (h : At m R T) (hp : ∀ d ∈ T.dims, 0 < d) (i : Nat)
    (hi : i ≤ 9223372036854775807) (buf : Arr) (hb : buf.length = T.dims.length) :
    linidxToCoords R.h i buf E m = .ok (dimsCells (unlin T.dims (i % prod T.dims))) m ∧
      offsetToCoords R.h i buf E m = .ok (dimsCells (unlin T.dims (i % prod T.dims))) m ∧
      InRange T.dims (unlin T.dims (i % prod T.dims)) := by
  have e : Arr.of (wrapped T.dims 1 i) = dimsCells (unlin T.dims (i % prod T.dims)) := by
    simp [Arr.of, wrapped, dimsCells]
  have h1 := linidxToCoords_off (E := E) h ha hp (n := i) (Or.inl rfl) (by omega) hb
  have h2 := offsetToCoords_off (E := E) h ha hp (n := i) (Or.inl rfl) (by omega) hb
  rw [Int.one_mul, e] at h1 h2
  exact ⟨h1, h2, unlin_inRange (Nat.mod_lt _ (prod_pos hp))⟩

/-- C74. In a build without assertions a negative position gives the negated coordinates of its absolute value
modulo the size (C division rounds towards zero). -/
theorem C74_negative_unchecked (ha : E.asserts = false) (h : At m R T) (hp : ∀ d ∈ T.dims, 0 < d) (i : Nat)
    (hi : i ≤ 9223372036854775808) (buf : Arr) (hb : buf.length = T.dims.length) :
    linidxToCoords R.h (-(i : Int)) buf E m =
        .ok (Arr.of ((unlin T.dims (i % prod T.dims)).map fun c : Nat => -(c : Int))) m ∧
      offsetToCoords R.h (-(i : Int)) buf E m =
        .ok (Arr.of ((unlin T.dims (i % prod T.dims)).map fun c : Nat => -(c : Int))) m := by
  have e : wrapped T.dims (-1) i = (unlin T.dims (i % prod T.dims)).map fun c : Nat => -(c : Int) := by
    simp [wrapped]
  have h1 := linidxToCoords_off (E := E) h ha hp (n := i) (Or.inr rfl) (by omega) hb
  have h2 := offsetToCoords_off (E := E) h ha hp (n := i) (Or.inr rfl) (by omega) hb
  rw [Int.neg_one_mul, e] at h1 h2
  exact ⟨h1, h2⟩

/-- C74. In a build without assertions every position of a tensor with an axis of length 0 divides by zero. -/
theorem C74_empty_unchecked (ha : E.asserts = false) (h : At m R T) (hz : 0 ∈ T.dims) (i : Int)
    (hi : -9223372036854775808 ≤ i ∧ i ≤ 9223372036854775807) (buf : Arr) (hb : buf.length = T.dims.length) :
    linidxToCoords R.h i buf E m = .ub .divZero ∧ offsetToCoords R.h i buf E m = .ub .divZero := by
  rcases Int.le_total 0 i with h0 | h0
  · have e : (1 : Int) * (i.toNat : Int) = i := by omega
    have h1 := linidxToCoords_zero (E := E) h ha hz (n := i.toNat) (Or.inl rfl) (by omega) hb
    have h2 := offsetToCoords_zero (E := E) h ha hz (n := i.toNat) (Or.inl rfl) (by omega) hb
    rw [e] at h1 h2
    exact ⟨h1, h2⟩
  · have e : (-1 : Int) * ((-i).toNat : Int) = i := by omega
    have h1 := linidxToCoords_zero (E := E) h ha hz (n := (-i).toNat) (Or.inr rfl) (by omega) hb
    have h2 := offsetToCoords_zero (E := E) h ha hz (n := (-i).toNat) (Or.inr rfl) (by omega) hb
    rw [e] at h1 h2
    exact ⟨h1, h2⟩

/-- C74. `aitisa_get_stride` has no assertion: in every build an axis that does not exist has the number of
elements as its stride. -/
theorem C74_stride (h : At m R T) (d : Int) (hd : ¬ (0 ≤ d ∧ d < (T.dims.length : Int))) :
    getStride R.h d E m = .ok (prod T.dims : Int) m := getStride_missing h (by omega)

/-! ## Examples -/

/-- The environment of a release build. -/
def ndebugEnv : Env := { okEnv with asserts := false }

/-- Coordinates (0, 3) of a 2x3 tensor do not exist; neither do (-1, 4), nor position 7 or -2. -/
example : coordsToLinidx Mem.empty.footT.h (Arr.of [0, 3]) 2 okEnv exMem = .abort :=
  ((C74_coords_checked (E := okEnv) rfl exA_at [0, 3] rfl 2).2 (fun h => by
    have := h.2.2 1 (by decide) (by decide); revert this; decide)).1

example : coordsToLinidx Mem.empty.footT.h (Arr.of [1, 2]) 3 okEnv exMem = .abort :=
  ((C74_coords_checked (E := okEnv) rfl exA_at [1, 2] rfl 3).2 (fun h => absurd h.1 (by decide))).1

example : linidxToCoords Mem.empty.footT.h 6 [none, none] okEnv exMem = .abort :=
  (C74_position_checked (E := okEnv) rfl exA_at 6 (by decide) [none, none]).1

/-- In a release build (0, 3) is the element (1, 0), (-1, 4) is (0, 1), and 7 is 1. -/
example : coordsToLinidx Mem.empty.footT.h (Arr.of [0, 3]) 2 ndebugEnv exMem = .ok 3 exMem :=
  (C74_coords_unchecked (E := ndebugEnv) rfl exA_at [0, 3] rfl (by decide) 2).1

example : coordsToOffset Mem.empty.footT.h (Arr.of [-1, 4]) 9 ndebugEnv exMem = .ok 1 exMem :=
  (C74_coords_unchecked (E := ndebugEnv) rfl exA_at [-1, 4] rfl (by decide) 9).2

example : linidxToCoords Mem.empty.footT.h (7 : Nat) [none, none] ndebugEnv exMem = .ok (dimsCells [0, 1]) exMem :=
  (C74_position_unchecked (E := ndebugEnv) rfl exA_at (by decide) 7 (by decide) [none, none] rfl).1

example : offsetToCoords Mem.empty.footT.h (-5) [none, none] ndebugEnv exMem = .ok (Arr.of [-1, -2]) exMem :=
  (C74_negative_unchecked (E := ndebugEnv) rfl exA_at (by decide) 5 (by decide) [none, none] rfl).2

example : getStride Mem.empty.footT.h (-1) okEnv exMem = .ok 6 exMem := C74_stride exA_at (-1) (by decide)

/-- A 2x0x3 tensor: position 0. -/
example : let T := tvOf .i32 [2, 0, 3] []
    linidxToCoords Mem.empty.footT.h 0 [none, none, none] ndebugEnv (Mem.empty.addT T) = .ub .divZero := by
  intro T
  exact (C74_empty_unchecked (E := ndebugEnv) rfl (tvOf_at (c := .i32) Mem.empty (by simp) rfl ⟨by decide, by decide⟩)
    (by decide) 0 (by decide) [none, none, none] rfl).1

end Aitisa
