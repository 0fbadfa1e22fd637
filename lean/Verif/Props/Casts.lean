import Verif.Proof.Casts
import Verif.Props.Harness

/-!
# C69: casts one after the other
-/

namespace Aitisa

variable {E : Env} {m : Mem} {R : Foot} {T : TV} {c c' d : Code} {xs : List Val} {cs cs' : List Code}

/-- C69, general form: two sequences of casts that end with the same type give equal tensors if they convert every element to
the same value. -/
theorem C69_sequences (wf : m.WF) (h : At m R T) (he : Elems T c xs) (hs : ShapeOK T.dims 8) (h1 : Steps c cs) (h2 : Steps c cs')
    (hl : lastCode c cs = lastCode c cs') (hz : ∀ x ∈ xs, ∃ z, ThroughCasts E.fp cs x z ∧ ThroughCasts E.fp cs' x z) :
    GiveSame E m (casts cs R.h) (casts cs' R.h) := casts_agree wf h he hs h1 h2 hl hz

/-- C69, integer types: a sequence of casts whose intermediate types have at least the size of the last gives what one cast gives -
if the last type is the type of the input, a tensor equal to the input. All elements, also where they wrap around; all machines. -/
theorem C69_integers (wf : m.WF) (h : At m R T) (he : Elems T c xs) (hs : ShapeOK T.dims 8) (hc : c.isInt = true) (hd : d.isInt = true)
    (hcs : ∀ c' ∈ cs, c'.isInt = true ∧ d.size ≤ c'.size) (hst : Steps c (cs ++ [d])) :
    GiveSame E m (casts (cs ++ [d]) R.h) (casts (direct c d) R.h) :=
  casts_agree wf h he hs hst (direct_steps c d) (by rw [last_append, direct_last]) fun x hx => by
    obtain ⟨n, rfl, hn⟩ := int_WT hc (he.wt x hx)
    exact ⟨_, ints_through hd hcs n, direct_int hc hd hn⟩

/-- C69, narrower integer types: a cast to a smaller integer type and back gives a tensor equal to the input exactly if all
elements are in the range of the smaller type - or, where the type of the input is unsigned and the other signed, differ from a
number in that range by the power of two at which the larger type wraps around. -/
theorem C69_narrow_back (wf : m.WF) (h : At m R T) (he : Elems T c xs) (hs : ShapeOK T.dims 8) (hc : c.isInt = true) (hc' : c'.isInt = true)
    (hsz : c'.size < c.size) {h' : Ptr} {m' : Mem} (e : casts [c', c] R.h E m = .ok (.success, h') m') :
    EqualTensors m' h' R.h ↔ ∀ n, .int n ∈ xs → Within c' n ∨ (c.signed = false ∧ Within c' (n - 2 ^ (8 * c.size))) := by
  have hne : c' ≠ c := by rintro rfl; exact absurd hsz (Nat.lt_irrefl _)
  have ht : ∀ n, ThroughCasts E.fp [c', c] (.int n) (.int (c.wrap (c'.wrap n))) := fun n => ⟨_, int_converts hc' n, _, int_converts hc _, rfl⟩
  rw [casts_back (cs := [c', c]) wf h he hs ⟨hne, Ne.symm hne, trivial⟩ rfl (fun x hx => by
    obtain ⟨n, rfl, -⟩ := int_WT hc (he.wt x hx)
    exact ⟨_, ht n⟩) e]
  have key : ∀ n, c.lo ≤ n ∧ n ≤ c.hi →
      (ThroughCasts E.fp [c', c] (.int n) (.int n) ↔ Within c' n ∨ (c.signed = false ∧ Within c' (n - 2 ^ (8 * c.size)))) := fun n hn => by
    rw [within_int hc', within_int hc', ← narrow_back hc hc' hsz hn]
    exact ⟨fun hb => by simpa using through_unique (ht n) hb, fun hb => by have := ht n; rwa [hb] at this⟩
  exact ⟨fun hx n hm => by
    obtain ⟨k, hk, hr⟩ := int_WT hc (he.wt _ hm)
    cases hk
    exact (key n hr).1 (hx _ hm), fun hx x hm => by
    obtain ⟨n, rfl, hr⟩ := int_WT hc (he.wt x hm)
    exact (key n hr).2 (hx n hm)⟩

/-- C69, whole numbers: any two sequences of casts that end with the same type give equal tensors if all elements are whole numbers
which every type on the way holds exactly, and no element is minus zero. -/
theorem C69_whole (hE : Machine E.fp) (wf : m.WF) (h : At m R T) (he : Elems T c xs) (hs : ShapeOK T.dims 8) (h1 : Steps c cs) (h2 : Steps c cs')
    (hl : lastCode c cs = lastCode c cs') (hx : ∀ x ∈ xs, ¬ MinusZero x ∧ ∃ n, Stands x n ∧ ∀ c' ∈ cs ++ cs', Within c' n) :
    GiveSame E m (casts cs R.h) (casts cs' R.h) :=
  casts_agree wf h he hs h1 h2 hl fun x hm => by
    obtain ⟨x0, n, hn, hw⟩ := hx x hm
    obtain ⟨z, hz, wz, sz, z0⟩ := whole_through (cs := cs) (he.wt x hm) hn x0 fun c hc => hw c (List.mem_append_left _ hc)
    obtain ⟨z', hz', wz', sz', z0'⟩ := whole_through (cs := cs') (he.wt x hm) hn x0 fun c hc => hw c (List.mem_append_right _ hc)
    rw [hl] at wz
    have := stands_inj wz wz' sz sz' z0 z0'
    subst this
    on_machine hE
    exact ⟨z, hz, hz'⟩

/-- C69, through `double`: from every type but the 64-bit integers to `double` and on to a type `d` is the same as one cast to `d`,
wherever that is defined; integers that go to a smaller integer type must be in its range. -/
theorem C69_through_double (hE : Machine E.fp) (wf : m.WF) (h : At m R T) (he : Elems T c xs) (hs : ShapeOK T.dims 8)
    (hc : c ≠ .i64 ∧ c ≠ .u64 ∧ c ≠ .f64) (hd : d ≠ .f64) (hcd : d ≠ c) (hx : ∀ x ∈ xs, ∃ y, Converts ieee d x y)
    (hw : d.isInt = true → ∀ n, .int n ∈ xs → Within d n) : GiveSame E m (casts [.f64, d] R.h) (casts [d] R.h) :=
  casts_agree wf h he hs ⟨Ne.symm hc.2.2, hd, trivial⟩ ⟨hcd, trivial⟩ rfl fun x hm => by
    obtain ⟨y, hy⟩ := hx x hm
    on_machine hE
    refine ⟨y, via_double (he.wt x hm) ⟨hc.1, hc.2.1⟩ hy (fun e => ?_) (fun _ hi n e => hw hi n (e ▸ hm)), y, hy, rfl⟩
    subst e
    cases x with
    | int n => trivial
    | f32 b => exact absurd (he.wt _ hm) (by cases c <;> first | exact absurd rfl hcd | exact fun h => h)
    | f64 b => exact absurd (he.wt _ hm) (by cases c <;> first | exact absurd rfl hc.2.2 | exact fun h => h)

/-- C69, to `double` and back: every tensor without NaN of every type but the 64-bit integers comes back. -/
theorem C69_double_back (hE : Machine E.fp) (wf : m.WF) (h : At m R T) (he : Elems T c xs) (hs : ShapeOK T.dims 8)
    (hc : c ≠ .i64 ∧ c ≠ .u64 ∧ c ≠ .f64) (hx : ∀ x ∈ xs, NotNaN x) : GiveSame E m (casts [.f64, c] R.h) (casts [] R.h) :=
  casts_agree wf h he hs ⟨Ne.symm hc.2.2, hc.2.2, trivial⟩ trivial rfl fun x hm => by
    on_machine hE
    obtain ⟨d, h1, h2⟩ := through_double (he.wt x hm) ⟨hc.1, hc.2.1⟩ (hx x hm)
    exact ⟨x, ⟨_, h1, x, h2, rfl⟩, rfl⟩

/-! ### Examples -/

/-- `int8_t` elements. -/
def exCaT : TV := tvOf .i8 [3] [.int (-128), .int 5, .int (-1)]

/-- From `int8_t` to `uint16_t` to `int64_t` to `uint8_t` is from `int8_t` to `uint8_t`. -/
example : GiveSame okEnv (Mem.empty.addT exCaT) (casts [.u16, .i64, .u8] Mem.empty.footT.h) (casts [.u8] Mem.empty.footT.h) :=
  C69_integers (c := .i8) (d := .u8) (cs := [.u16, .i64]) (Mem.addT_wf Mem.empty_wf _) (tvOf_at _ (by simp) rfl ⟨by decide, by decide⟩)
    (tvOf_elems (by decide) rfl) ⟨by decide, by decide⟩ rfl rfl (by decide) ⟨by decide, by decide, by decide, trivial⟩

/-- From `int8_t` to `uint8_t` and back. -/
example : GiveSame okEnv (Mem.empty.addT exCaT) (casts [.u8, .i8] Mem.empty.footT.h) (casts [] Mem.empty.footT.h) :=
  C69_integers (c := .i8) (d := .i8) (cs := [.u8]) (Mem.addT_wf Mem.empty_wf _) (tvOf_at _ (by simp) rfl ⟨by decide, by decide⟩)
    (tvOf_elems (by decide) rfl) ⟨by decide, by decide⟩ rfl rfl (by decide) ⟨by decide, by decide, trivial⟩

/-- `int32_t` elements, one of them out of the range of `int16_t`. -/
def exCaW : TV := tvOf .i32 [2] [.int 7, .int 40000]

/-- They do not come back from `int16_t`, without any error. -/
example : ∃ h' m', casts [.i16, .i32] Mem.empty.footT.h okEnv (Mem.empty.addT exCaW) = .ok (.success, h') m' ∧ ¬ EqualTensors m' h' Mem.empty.footT.h := by
  have hat : At (Mem.empty.addT exCaW) Mem.empty.footT exCaW := tvOf_at _ (by simp) rfl ⟨by decide, by decide⟩
  have hel : Elems exCaW .i32 [.int 7, .int 40000] := tvOf_elems (by decide) rfl
  have hwf : (Mem.empty.addT exCaW).WF := Mem.addT_wf Mem.empty_wf _
  have hst : Steps .i32 [.i16, .i32] := ⟨by decide, by decide, trivial⟩
  obtain ⟨R, m', e, -⟩ := (casts_computes (E := okEnv) (zs := [.int 7, .int (-25536)]) hwf hat hel ⟨by decide, by decide⟩ hst ⟨rfl, fun k h1 _ => by
    match k, h1 with
    | 0, _ => exact ⟨.int 7, int_converts rfl _, .int 7, int_converts rfl _, rfl⟩
    | 1, _ => exact ⟨.int (-25536), int_converts rfl _, .int (-25536), int_converts rfl _, rfl⟩⟩).runs okEnv_noFail okEnv_malloc
  refine ⟨_, _, e, fun h => ?_⟩
  rcases (C69_narrow_back hwf hat hel ⟨by decide, by decide⟩ rfl rfl (by decide) e).1 h 40000 (by simp) with ⟨lo, hi, hr, a, b⟩ | ⟨hb, _⟩
  · cases hr
    exact absurd b (by decide)
  · exact absurd hb (by decide)

/-- `float` elements: 0.1, -1, the smallest number and a large one. From `float` to `double` and back. -/
example : GiveSame ieeeEnv exFloMem (casts [.f64, .f32] Mem.empty.footT.h) (casts [] Mem.empty.footT.h) :=
  C69_double_back (c := .f32) ieee_machine (Mem.addT_wf Mem.empty_wf _) (tvOf_at _ (by simp) rfl ⟨by decide, by decide⟩) (tvOf_elems (by decide) rfl)
    ⟨by decide, by decide⟩ (by decide) fun x hx => by
      simp only [List.mem_cons, List.not_mem_nil, or_false, exFlo] at hx
      rcases hx with rfl | rfl | rfl | rfl <;> (simp only [NotNaN]; decide +kernel)

/-- From `int8_t` by way of `float`, `int32_t` and `double` to `int16_t` is a single cast, and so is by way of `double`. -/
example : GiveSame ieeeEnv (Mem.empty.addT exCaT) (casts [.f32, .i32, .f64, .i16] Mem.empty.footT.h) (casts [.i16] Mem.empty.footT.h) ∧
    GiveSame ieeeEnv (Mem.empty.addT exCaT) (casts [.f64, .f32] Mem.empty.footT.h) (casts [.f32] Mem.empty.footT.h) :=
  ⟨C69_whole (c := .i8) ieee_machine (Mem.addT_wf Mem.empty_wf _) (tvOf_at _ (by simp) rfl ⟨by decide, by decide⟩) (tvOf_elems (by decide) rfl)
      ⟨by decide, by decide⟩ ⟨by decide, by decide, by decide, by decide, trivial⟩ ⟨by decide, trivial⟩ rfl fun x hx => by
        simp only [List.mem_cons, List.not_mem_nil, or_false] at hx
        rcases hx with rfl | rfl | rfl <;> refine ⟨fun h => h, _, rfl, fun c' hc => ?_⟩ <;>
          (simp only [List.cons_append, List.nil_append, List.mem_cons, List.not_mem_nil, or_false] at hc
           rcases hc with rfl | rfl | rfl | rfl | rfl <;> first | exact ⟨by decide, by decide⟩ | exact ⟨_, _, rfl, by decide, by decide⟩),
    C69_through_double (c := .i8) ieee_machine (Mem.addT_wf Mem.empty_wf _) (tvOf_at _ (by simp) rfl ⟨by decide, by decide⟩) (tvOf_elems (by decide) rfl)
      ⟨by decide, by decide⟩ (by decide) (by decide) (by decide) (fun x hx => by
        simp only [List.mem_cons, List.not_mem_nil, or_false] at hx
        rcases hx with rfl | rfl | rfl <;> exact ⟨_, rfl⟩) (fun h => absurd h (by decide))⟩

/-- 16777217 does not come back from `float`, and 0.1 not from `float` to `double`: the hypotheses are needed. -/
example : ieee.trunc32 (ieee.ofInt32 16777217) = some 16777216 ∧ ieee.widen (ieee.narrow 0x3FB999999999999A) ≠ 0x3FB999999999999A := by decide +kernel

end Aitisa
