import Verif.Proof.AutoTest

/-!
# The input and result classes obey the laws
-/

namespace Aitisa

variable {α β : Type} {E : Env} {m m' m1 m2 : Mem} {L L' : List Nat}

theorem Fresh.refl (h : m.WF) : Fresh m m [] := ⟨.nil, h, Nat.le_refl _, fun _ h => (by cases h), fun _ _ => rfl⟩

theorem Fresh.perm (h : Fresh m m' L) (p : L.Perm L') : Fresh m m' L' :=
  ⟨p.nodup_iff.1 h.nodup, h.wf, h.le, fun b hb => h.new b (p.mem_iff.2 hb), fun b hb => h.old b fun h => hb (p.mem_iff.1 h)⟩

theorem Fresh.lt (h : Fresh m m' L) {b : Nat} (hb : b ∈ L) : b < m'.next := by
  obtain ⟨-, x, hx⟩ := h.new b hb
  exact Frame.lt_next h.wf hx

theorem Fresh.trans (h1 : Fresh m m1 L) (h2 : Fresh m1 m2 L') : Fresh m m2 (L' ++ L) := by
  have hle := h1.le
  have hd : ∀ b ∈ L, b ∉ L' := fun b hb hb' => by
    have := h1.lt hb
    have := (h2.new b hb').1
    omega
  refine ⟨List.nodup_append.2 ⟨h2.nodup, h1.nodup, fun a ha b hb e => hd b hb (e ▸ ha)⟩, h2.wf, Nat.le_trans h1.le h2.le,
    fun b hb => ?_, fun b hb => ?_⟩
  · rcases List.mem_append.1 hb with hb | hb
    · exact ⟨by have := (h2.new b hb).1; omega, (h2.new b hb).2⟩
    · obtain ⟨h3, x, hx⟩ := h1.new b hb
      exact ⟨h3, x, by rw [h2.old b (hd b hb), hx]⟩
  · rw [h2.old b fun h => hb (List.mem_append.2 (.inl h)), h1.old b fun h => hb (List.mem_append.2 (.inr h))]

/-- `x` gives a value and new blocks with `Q`, or throws. -/
def Mk (x : M α) (E : Env) (m : Mem) (Q : α → Mem → List Nat → Prop) : Prop :=
  (∃ a m' L, x E m = .ok a m' ∧ Fresh m m' L ∧ Q a m' L) ∨ (¬ E.MallocOK ∧ x E m = .abort)

theorem Mk.bind {x : M α} {f : α → M β} {Q : α → Mem → List Nat → Prop} {R : β → Mem → List Nat → Prop} (h : Mk x E m Q)
    (hf : ∀ a m1 L1, Fresh m m1 L1 → Q a m1 L1 → Mk (f a) E m1 fun b m2 L2 => R b m2 (L2 ++ L1)) : Mk (x >>= f) E m R := by
  rcases h with ⟨a, m1, L1, e, f1, q⟩ | ⟨hE, e⟩
  · rcases hf a m1 L1 f1 q with ⟨b, m2, L2, e2, f2, r⟩ | ⟨hE, e2⟩
    · exact .inl ⟨b, m2, _, by rw [run_bind, e]; exact e2, f1.trans f2, r⟩
    · exact .inr ⟨hE, by rw [run_bind, e]; exact e2⟩
  · exact .inr ⟨hE, by rw [run_bind, e]; rfl⟩

theorem Mk.pure {a : α} {Q : α → Mem → List Nat → Prop} (h : m.WF) (q : Q a m []) : Mk (pure a : M α) E m Q :=
  .inl ⟨a, m, [], rfl, .refl h, q⟩

theorem Mk.mono {x : M α} {Q R : α → Mem → List Nat → Prop} (h : Mk x E m Q) (hq : ∀ a m' L, Q a m' L → R a m' L) : Mk x E m R :=
  h.imp_left fun ⟨a, m', L, e, f, q⟩ => ⟨a, m', L, e, f, hq _ _ _ q⟩

theorem cppNew_mk (h : m.WF) (sz : Nat) (B : Body) :
    Mk (cppNew sz B) E m fun p m' L => ∃ b, p = .blk b ∧ L = [b] ∧ m'.blk b = some ⟨.own, B⟩ := by
  unfold cppNew Mk
  by_cases hE : E.mallocOk m.tick sz = true
  · refine .inl ⟨_, _, [m.next], if_pos hE, ⟨by simp, fun b hb => ?_, Nat.le_succ _, fun b hb => ?_, fun b hb => ?_⟩, m.next, rfl, rfl,
      by simp [upd]⟩
    · have hb : m.next + 1 ≤ b := hb
      simp only [upd]
      rw [if_neg (by omega)]; exact h b (by omega)
    · rw [List.mem_singleton.1 hb]
      exact ⟨Nat.le_refl _, B, by simp [upd]⟩
    · simp only [upd]
      rw [if_neg (by simpa using hb)]
  · exact .inr ⟨fun h => hE (h _ _), if_neg hE⟩

theorem newChars_mk (h : m.WF) (bs : List Byte) : Mk (newChars bs) E m fun p m' L => ∃ b, p = .blk b ∧ L = [b] ∧ m'.blk b = some ⟨.own, .bytes bs⟩ :=
  cppNew_mk h _ _

theorem newOpt_mk (h : m.WF) (d : Option (List Byte)) : Mk (newOpt d) E m fun p _ L => p ≠ .indet ∧ L = ids [p] := by
  cases d with
  | none => exact .pure h ⟨nofun, rfl⟩
  | some bs =>
    refine (newChars_mk h bs).mono ?_
    rintro _ _ _ ⟨b, rfl, rfl, -⟩
    exact ⟨nofun, rfl⟩

/-- Overwriting a new block. -/
theorem Fresh.set (h : Fresh m m' L) {b : Nat} (hb : b ∈ L) (B : Body) : Fresh m (m'.set b (some ⟨.own, B⟩)) L := by
  have hlt := h.lt hb
  refine ⟨h.nodup, fun x hx => ?_, h.le, fun x hx => ⟨(h.new x hx).1, ?_⟩, fun x hx => ?_⟩
  · have hx : m'.next ≤ x := hx
    rw [Mem.set_blk_ne _ _ (by omega)]; exact h.wf x hx
  · by_cases e : x = b
    · subst e; exact ⟨B, Mem.set_blk_same _ _ _⟩
    · rw [Mem.set_blk_ne _ _ e]; exact (h.new x hx).2
  · rw [Mem.set_blk_ne _ _ (by rintro rfl; exact hx hb), h.old x hx]

theorem newCount_mk (h : m.WF) : Mk newCount E m fun p m' L => ∃ c, p = .blk c ∧ L = [c] ∧ m'.blk c = some (ctr 1) := by
  unfold newCount
  rcases cppNew_mk (E := E) h 4 (.i64s [none]) with ⟨_, m1, _, e, f, b, rfl, rfl, hb⟩ | ⟨hE, e⟩
  · have e3 : storeI (.blk b) 0 1 E m1 = .ok () (m1.set b (some (ctr 1))) := run_storeI (i := 0) hb (by simp) _ E
    refine .inl ⟨.blk b, m1.set b (some (ctr 1)), [b], ?_, f.set (by simp) _, b, rfl, rfl, Mem.set_blk_same _ _ _⟩
    simp only [run_bind, e, andThen_ok, e3]; rfl
  · exact .inr ⟨hE, by simp only [run_bind, e]; rfl⟩

theorem newDims_mk (h : m.WF) {ndim : Int} {ds : List Int} (hr : rankOk ndim ds) :
    Mk (newDims ndim ds) E m fun p m' L => ∃ b, p = .blk b ∧ L = [b] ∧ m'.blk b = some ⟨.own, .i64s (Arr.of (ds.take ndim.toNat))⟩ := by
  obtain ⟨h0, h1, h2⟩ := hr
  unfold newDims newInt64s
  rw [if_pos ⟨h0, h2⟩]
  rcases cppNew_mk (E := E) h (8 * ndim).toNat (.i64s (List.replicate ndim.toNat none)) with ⟨_, m1, _, e, f, b, rfl, rfl, hb⟩ | ⟨hE, e⟩
  · have hfill := fillI_run (E := E) hb (fun i _ => do
        let d ← Arr.rd (Arr.of ds) i
        storeI (.blk b) i d) (fun i => ds.getD i 0) (by
      intro i m' hi
      simp only [List.length_replicate] at hi
      have hl : i < ds.length := by omega
      have : Arr.rd (Arr.of ds) i E m' = .ok (ds.getD i 0) m' := run_rd (a := Arr.of ds) (i := i) (by simp [Arr.of, hl]) E m'
      rw [run_bind, this]; rfl)
    simp only [List.length_replicate] at hfill
    have hl : (List.range ndim.toNat).map (fun i => some (ds.getD i 0)) = Arr.of (ds.take ndim.toNat) := by
      apply List.ext_getElem
      · simp [Arr.of]; omega
      · intro i h1 h2
        simp only [List.length_map, List.length_range] at h1
        have : i < ds.length := by omega
        simp [Arr.of, this]
    rw [hl] at hfill
    refine .inl ⟨.blk b, m1.set b _, [b], ?_, f.set (by simp) _, b, rfl, rfl, Mem.set_blk_same _ _ _⟩
    simp only [run_bind, e, andThen_ok, forI, hfill]; rfl
  · exact .inr ⟨hE, by simp only [run_bind, e]; rfl⟩

/-- The form of a new object. -/
def Made {ι κ : Type} (C : Cls α ι κ) (o : α) (m : Mem) (L : List Nat) : Prop :=
  ∃ c, C.count o = .blk c ∧ L.Perm (c :: ids (C.bufs o)) ∧ m.blk c = some (ctr 1) ∧ ∀ p ∈ C.bufs o, p ≠ .indet

theorem Mk.made {ι κ : Type} {C : Cls α ι κ} {a : ι} (h : Mk (C.make a) E m (Made C)) :
    (∃ o m' c, C.make a E m = .ok o m' ∧ C.count o = .blk c ∧ Fresh m m' (c :: ids (C.bufs o)) ∧ m'.blk c = some (ctr 1) ∧
      ∀ p ∈ C.bufs o, p ≠ .indet) ∨ (¬ E.MallocOK ∧ C.make a E m = .abort) :=
  h.imp_left fun ⟨o, m', _, e, f, c, h1, h2, h3, h4⟩ => ⟨o, m', c, e, h1, f.perm h2, h3, h4⟩

/-! ## `Unary_Input` -/

theorem unary_make (a : UnaryArg) (ha : a.ok) (h : m.WF) : Mk (unaryCls.make a) E m (Made unaryCls) := by
  cases a with
  | default =>
    refine (newCount_mk h).bind ?_
    rintro _ m1 _ f ⟨c, rfl, rfl, hc⟩
    exact .pure f.wf ⟨c, rfl, .refl _, hc, by simp [unaryCls]⟩
  | ptr ds dtype device data len =>
    refine (cppNew_mk h _ _).bind ?_
    rintro _ m1 _ f1 ⟨b, rfl, rfl, -⟩
    refine (newOpt_mk f1.wf data).bind ?_
    rintro p m2 _ f2 ⟨hp, rfl⟩
    refine (newCount_mk f2.wf).bind ?_
    rintro _ m3 _ f3 ⟨c, rfl, rfl, hc⟩
    refine .pure f3.wf ⟨c, rfl, ?_, hc, by simp [unaryCls, hp]⟩
    refine .cons _ (List.perm_append_comm.trans ?_)
    exact .refl _
  | vec ndim ds dtype device data len =>
    refine (newOpt_mk h data).bind ?_
    rintro p m2 _ f2 ⟨hp, rfl⟩
    refine (newDims_mk f2.wf ha).bind ?_
    rintro _ m1 _ f1 ⟨b, rfl, rfl, -⟩
    refine (newCount_mk f1.wf).bind ?_
    rintro _ m3 _ f3 ⟨c, rfl, rfl, hc⟩
    exact .pure f3.wf ⟨c, rfl, .refl _, hc, by simp [unaryCls, hp]⟩

theorem andThen_assoc' {α β γ : Type} (r : Res α) (f : α → Mem → Res β) (g : β → Mem → Res γ) :
    (r.andThen f).andThen g = r.andThen fun a m => (f a m).andThen g := by cases r <;> rfl

theorem rawFrees2 (a b : Ptr) : rawFrees [a, b] = (do rawFree a; rawFree b) := by
  funext E m
  simp only [rawFrees, run_bind]
  cases rawFree a E m with
  | ok u m1 =>
    simp only [andThen_ok]
    cases rawFree b E m1 <;> rfl
  | _ => rfl

theorem rawFrees4 (a b c d : Ptr) : rawFrees [a, b, c, d] = (do rawFree a; rawFree b; rawFree c; rawFree d) := by
  funext E m
  simp only [rawFrees, run_bind]
  cases rawFree a E m with
  | ok u m1 =>
    simp only [andThen_ok]
    cases rawFree b E m1 with
    | ok u m1 =>
      simp only [andThen_ok]
      cases rawFree c E m1 with
      | ok u m1 =>
        simp only [andThen_ok]
        cases rawFree d E m1 <;> rfl
      | _ => rfl
    | _ => rfl
  | _ => rfl

theorem unary_lawful : Lawful unaryCls UnaryArg.ok (fun _ o => o.data = .null) true where
  make ha h := (unary_make _ ha h).made
  attach {bs o E m} hf h := by
    have : Mk (unaryCls.attach bs o) E m fun o' _ L => unaryCls.count o' = unaryCls.count o ∧
        (ids (unaryCls.bufs o')).Perm (L ++ ids (unaryCls.bufs o)) ∧ ∀ p ∈ unaryCls.bufs o', p = .indet → p ∈ unaryCls.bufs o := by
      refine (newChars_mk h bs).bind ?_
      rintro _ m1 _ f ⟨b, rfl, rfl, -⟩
      refine .pure f.wf ⟨rfl, ?_, ?_⟩
      · simp only [unaryCls, UnaryInput.setData, hf]
        cases o.dims
        · exact .refl _
        · exact .swap _ _ _
        · exact .refl _
      · simp +contextual [unaryCls, UnaryInput.setData]
    exact this.imp_left fun ⟨o', m', L, e, f, h1, h2, h3⟩ => ⟨o', m', L, e, h1, f, h2, h3⟩
  copy o := ⟨_, rfl, rfl, rfl⟩
  move o := ⟨_, _, rfl, rfl, rfl, by simp [unaryCls, UnaryInput.toNull], rfl⟩
  assign _ o r := ⟨⟨r.ndim, r.dims, r.dtype, r.device, r.data, r.len, r.count⟩, rfl, rfl, by
    show UnaryInput.assign o r = _
    unfold UnaryInput.assign
    simp only [unaryCls, rawFrees2]
    funext E m
    simp only [run_bind]
    cases decCount o.count E m with
    | ok n m1 =>
      simp only [andThen_ok]
      split
      · simp only [run_bind]
        cases rawFree o.dims E m1 <;> rfl
      · rfl
    | _ => rfl⟩
  dtor o := by
    show UnaryInput.dtor o = _
    unfold UnaryInput.dtor
    simp only [unaryCls, rawFrees2]
    funext E m
    split
    · simp only [run_bind]
      cases decCount o.count E m with
      | ok n m1 =>
        simp only [andThen_ok]
        split
        · simp only [run_bind]
          cases rawFree o.dims E m1 <;> rfl
        · rfl
      | _ => rfl
    · rfl

/-! ## `Binary_Input` -/

theorem ids_append {ps qs : List Ptr} : ids (ps ++ qs) = ids ps ++ ids qs := List.filterMap_append

theorem Ptr.ids_perm {ps qs : List Ptr} (h : ps.Perm qs) : (ids ps).Perm (ids qs) := h.filterMap _

theorem binary_make (a : BinaryArg) (ha : a.ok) (h : m.WF) : Mk (binaryCls.make a) E m (Made binaryCls) := by
  cases a with
  | default =>
    refine (newCount_mk h).bind ?_
    rintro _ m1 _ f ⟨c, rfl, rfl, hc⟩
    exact .pure f.wf ⟨c, rfl, .refl _, hc, by simp [binaryCls]⟩
  | ptr ds1 dtype1 device1 data1 len1 ds2 dtype2 device2 data2 len2 =>
    refine (cppNew_mk h _ _).bind ?_
    rintro _ m1 _ f1 ⟨b1, rfl, rfl, -⟩
    refine (newOpt_mk f1.wf data1).bind ?_
    rintro p1 m2 _ f2 ⟨hp1, rfl⟩
    refine (cppNew_mk f2.wf _ _).bind ?_
    rintro _ m3 _ f3 ⟨b2, rfl, rfl, -⟩
    refine (newOpt_mk f3.wf data2).bind ?_
    rintro p2 m4 _ f4 ⟨hp2, rfl⟩
    refine (newCount_mk f4.wf).bind ?_
    rintro _ m5 _ f5 ⟨c, rfl, rfl, hc⟩
    refine .pure f5.wf ⟨c, rfl, .cons _ ?_, hc, by simp [binaryCls, hp1, hp2]⟩
    refine .trans (l₂ := ids [p2, .blk b2, p1, .blk b1]) ?_ (Ptr.ids_perm ?_)
    · rw [show ids [p2, .blk b2, p1, .blk b1] = ids ([p2] ++ ([.blk b2] ++ ([p1] ++ [.blk b1]))) from rfl]
      simp only [ids_append, List.append_eq, List.nil_append, List.append_assoc]
      exact .refl _
    · simp only [binaryCls]
      exact (List.reverse_perm [.blk b1, p1, .blk b2, p2]).trans (.cons _ (.swap _ _ _))
  | vec ndim1 ds1 dtype1 device1 data1 len1 ndim2 ds2 dtype2 device2 data2 len2 =>
    refine (newOpt_mk h data1).bind ?_
    rintro p1 m2 _ f2 ⟨hp1, rfl⟩
    refine (newOpt_mk f2.wf data2).bind ?_
    rintro p2 m4 _ f4 ⟨hp2, rfl⟩
    refine (newDims_mk f4.wf ha.1).bind ?_
    rintro _ m1 _ f1 ⟨b1, rfl, rfl, -⟩
    refine (newDims_mk f1.wf ha.2).bind ?_
    rintro _ m3 _ f3 ⟨b2, rfl, rfl, -⟩
    refine (newCount_mk f3.wf).bind ?_
    rintro _ m5 _ f5 ⟨c, rfl, rfl, hc⟩
    refine .pure f5.wf ⟨c, rfl, .cons _ ?_, hc, by simp [binaryCls, hp1, hp2]⟩
    refine .trans (l₂ := ids [.blk b2, .blk b1, p2, p1]) ?_ (Ptr.ids_perm ?_)
    · rw [show ids [.blk b2, .blk b1, p2, p1] = ids ([.blk b2] ++ ([.blk b1] ++ ([p2] ++ [p1]))) from rfl]
      simp only [ids_append]
      exact .refl _
    · simp only [binaryCls]
      exact (List.Perm.swap _ _ _).trans (.cons _ (.cons _ (.swap _ _ _)))

theorem binary_lawful :
    Lawful binaryCls BinaryArg.ok (fun k o => (if k.1 then o.data2 else o.data1) = .null) true where
  make ha h := (binary_make _ ha h).made
  attach {k o E m} hf h := by
    have : Mk (binaryCls.attach k o) E m fun o' _ L => binaryCls.count o' = binaryCls.count o ∧
        (ids (binaryCls.bufs o')).Perm (L ++ ids (binaryCls.bufs o)) ∧ ∀ p ∈ binaryCls.bufs o', p = .indet → p ∈ binaryCls.bufs o := by
      refine (newChars_mk h k.2).bind ?_
      rintro _ m1 _ f ⟨b, rfl, rfl, -⟩
      obtain ⟨k1, bs⟩ := k
      cases k1 with
      | true =>
        have hf : o.data2 = .null := hf
        refine .pure f.wf ⟨rfl, ?_, ?_⟩
        · refine .trans (Ptr.ids_perm (qs := [.blk b, o.dims1, o.dims2, o.data1]) ?_) ?_
          · exact List.perm_append_comm (l₁ := [o.dims1, o.dims2, o.data1]) (l₂ := [.blk b])
          · simp only [binaryCls, hf]
            rw [show [o.dims1, o.dims2, o.data1, .null] = [o.dims1, o.dims2, o.data1] ++ [.null] from rfl, ids_append,
              show ids [Ptr.null] = [] from rfl, List.append_nil]
            exact .refl _
        · simp +contextual [binaryCls, BinaryInput.setData2]
      | false =>
        have hf : o.data1 = .null := hf
        refine .pure f.wf ⟨rfl, ?_, ?_⟩
        · refine .trans (Ptr.ids_perm (qs := [.blk b, o.dims1, o.dims2, o.data2]) ?_) ?_
          · exact (List.perm_append_comm (l₁ := [o.dims1, o.dims2]) (l₂ := [.blk b])).append_right [o.data2]
          · simp only [binaryCls, hf]
            rw [show [o.dims1, o.dims2, .null, o.data2] = [o.dims1, o.dims2] ++ ([.null] ++ [o.data2]) from rfl,
              show [.blk b, o.dims1, o.dims2, o.data2] = [.blk b] ++ ([o.dims1, o.dims2] ++ [o.data2]) from rfl]
            simp only [ids_append, show ids [Ptr.null] = [] from rfl, List.nil_append]
            exact .refl _
        · simp +contextual [binaryCls, BinaryInput.setData1]
    exact this.imp_left fun ⟨o', m', L, e, f, h1, h2, h3⟩ => ⟨o', m', L, e, h1, f, h2, h3⟩
  copy o := ⟨_, rfl, rfl, rfl⟩
  move o := ⟨_, _, rfl, rfl, rfl, by simp [binaryCls, BinaryInput.toNull], rfl⟩
  assign _ o r := ⟨⟨r.ndim1, r.dims1, r.dtype1, r.device1, r.data1, r.len1, r.ndim2, r.dims2, r.dtype2, r.device2, r.data2, r.len2, r.count⟩,
      rfl, rfl, by
    show BinaryInput.assign o r = _
    unfold BinaryInput.assign
    simp only [binaryCls, rawFrees4]
    funext E m
    simp only [run_bind]
    cases decCount o.count E m with
    | ok n m1 =>
      simp only [andThen_ok]
      split
      · simp only [run_bind, andThen_assoc']
      · rfl
    | _ => rfl⟩
  dtor o := by
    show BinaryInput.dtor o = _
    unfold BinaryInput.dtor
    simp only [binaryCls, rawFrees4]
    funext E m
    split
    · simp only [run_bind]
      cases decCount o.count E m with
      | ok n m1 =>
        simp only [andThen_ok]
        split
        · simp only [run_bind, andThen_assoc', if_true]
        · rfl
      | _ => rfl
    · rfl

/-! ## `Result` -/

theorem setResult_mk (h : m.WF) (o : ResultObj) {nd nb : Nat} {kd kb : Origin} {ds : List Int} {bs : List Byte}
    (hd : m.blk nd = some ⟨kd, .i64s (Arr.of ds)⟩) (hb : m.blk nb = some ⟨kb, .bytes bs⟩) (hr : 8 * (ds.length : Int) ≤ I64_MAX) (dt dv : Int) :
    Mk (o.setResult ds.length (.blk nd) dt dv (.blk nb) bs.length) E m fun o' m' L => ∃ a b, L = [b, a] ∧
      o' = { o with ndim := ds.length, dtype := dt, device := dv, len := bs.length, dims := .blk a, data := .blk b } ∧
      m'.blk a = some ⟨.own, .i64s (Arr.of ds)⟩ ∧ m'.blk b = some ⟨.own, .bytes bs⟩ := by
  unfold ResultObj.setResult newInt64s
  rw [if_pos ⟨by omega, hr⟩]
  rcases cppNew_mk (E := E) h (8 * (ds.length : Int)).toNat (.i64s (List.replicate (ds.length : Int).toNat none)) with
    ⟨_, m1, _, e1, f1, a, rfl, rfl, ha⟩ | ⟨hE, e⟩
  · rcases cppNew_mk (E := E) f1.wf bs.length (.bytes (List.replicate bs.length none)) with ⟨_, m2, _, e2, f2, b, rfl, rfl, hb'⟩ | ⟨hE, e⟩
    · have fa := f1.trans f2
      have na : ∀ {x B}, m.blk x = some B → x ≠ a ∧ x ≠ b := fun hx => by
        have h1 := Frame.lt_next h hx
        have h2 := (fa.new a (by simp)).1
        have h3 := (fa.new b (by simp)).1
        omega
      have hab : a ≠ b := by
        have := fa.nodup
        simp at this
        exact fun e => this e.symm
      have hd2 : m2.blk nd = some ⟨kd, .i64s (Arr.of ds)⟩ := by rw [fa.old _ (by simpa [not_or] using (na hd).symm), hd]
      have hb2 : m2.blk nb = some ⟨kb, .bytes bs⟩ := by rw [fa.old _ (by simpa [not_or] using (na hb).symm), hb]
      have ha2 : m2.blk a = some ⟨.own, .i64s (List.replicate (ds.length : Int).toNat none)⟩ := by
        rw [f2.old _ (by simpa using hab), ha]
      have hb3 : (m2.set a (some ⟨.own, .i64s (Arr.of ds)⟩)).blk nb = some ⟨kb, .bytes bs⟩ := by
        rw [Mem.set_blk_ne _ _ (na hb).1, hb2]
      have hb4 : (m2.set a (some ⟨.own, .i64s (Arr.of ds)⟩)).blk b = some ⟨.own, .bytes (List.replicate bs.length none)⟩ := by
        rw [Mem.set_blk_ne _ _ (Ne.symm hab), hb']
      refine .inl ⟨_, (m2.set a (some ⟨.own, .i64s (Arr.of ds)⟩)).set b (some ⟨.own, .bytes bs⟩), [b, a], ?_,
        (fa.set (by simp) _).set (by simp) _, a, b, rfl, rfl, ?_, Mem.set_blk_same _ _ _⟩
      · have t1 : (Arr.of ds).take (ds.length : Int).toNat = Arr.of ds := List.take_of_length_le (by simp [Arr.of])
        have t2 : bs.take bs.length = bs := List.take_of_length_le (Nat.le_refl _)
        have l1 : (ds.length : Int) ≤ (Arr.of ds).length := by simp [Arr.of]
        simp only [run_bind, e1, andThen_ok, e2, run_derefI hd2, if_pos l1, t1, run_putBody ha2, run_derefB hb3, if_pos (Nat.le_refl _), t2,
          run_putBody hb4]
        rfl
      · rw [Mem.set_blk_ne _ _ hab, Mem.set_blk_same]
    · exact .inr ⟨hE, by simp only [run_bind, e1, andThen_ok, e]; rfl⟩
  · exact .inr ⟨hE, by simp only [run_bind, e]; rfl⟩

theorem result_attach (h : m.WF) (k : List Int × List Byte × Int × Int) (o : ResultObj) (hr : 8 * (k.1.length : Int) ≤ I64_MAX) :
    Mk (resultCls.attach k o) E m fun o' m' L => ∃ a b, L = [b, a] ∧
      o' = { o with ndim := k.1.length, dtype := k.2.2.1, device := k.2.2.2, len := k.2.1.length, dims := .blk a, data := .blk b } ∧
      m'.blk a = some ⟨.own, .i64s (Arr.of k.1)⟩ ∧ m'.blk b = some ⟨.own, .bytes k.2.1⟩ := by
  obtain ⟨ds, bs, dt, dv⟩ := k
  simp only [resultCls]
  rcases cppNew_mk (E := E) h (8 * ds.length) (.i64s (Arr.of ds)) with ⟨_, m1, _, e1, f1, x, rfl, rfl, hx⟩ | ⟨hE, e⟩
  · rcases newChars_mk (E := E) f1.wf bs with ⟨_, m2, _, e2, f2, y, rfl, rfl, hy⟩ | ⟨hE, e⟩
    · have f12 := f1.trans f2
      have hxy : x ≠ y := by
        have := f12.nodup
        simp at this
        exact fun e => this e.symm
      have hx2 : m2.blk x = some ⟨.own, .i64s (Arr.of ds)⟩ := by rw [f2.old _ (by simpa using hxy), hx]
      rcases setResult_mk (E := E) f2.wf o hx2 hy hr dt dv with ⟨_, m3, _, e3, f3, a, b, rfl, rfl, ha, hb⟩ | ⟨hE, e⟩
      · have na : ∀ {z B}, m2.blk z = some B → z ≠ a ∧ z ≠ b := fun hz => by
          have h1 := Frame.lt_next f2.wf hz
          have h2 := (f3.new a (by simp)).1
          have h3 := (f3.new b (by simp)).1
          omega
        have hx3 : m3.blk x = some ⟨.own, .i64s (Arr.of ds)⟩ := by rw [f3.old _ (by simpa [not_or] using (na hx2).symm), hx2]
        have hy3 : m3.blk y = some ⟨.own, .bytes bs⟩ := by rw [f3.old _ (by simpa [not_or] using (na hy).symm), hy]
        have hy4 : (m3.set x none).blk y = some ⟨.own, .bytes bs⟩ := by rw [Mem.set_blk_ne _ _ (Ne.symm hxy), hy3]
        have hbl : ∀ z, z ≠ x → z ≠ y → ((m3.set x none).set y none).blk z = m3.blk z := fun z h1 h2 => by
          rw [Mem.set_blk_ne _ _ h2, Mem.set_blk_ne _ _ h1]
        have hle := f12.le
        refine .inl ⟨_, (m3.set x none).set y none, [b, a], ?_, ⟨f3.nodup, fun z hz => ?_, Nat.le_trans f12.le f3.le, fun z hz => ?_,
          fun z hz => ?_⟩, a, b, rfl, rfl, ?_, ?_⟩
        · simp only [run_bind, e1, andThen_ok, e2, e3, run_rawFree hx3, run_rawFree hy4]; rfl
        · have hz : m3.next ≤ z := hz
          have h1 := Frame.lt_next f3.wf hx3
          have h2 := Frame.lt_next f3.wf hy3
          rw [hbl z (by omega) (by omega)]
          exact f3.wf z hz
        · obtain ⟨h1, B, h2⟩ := f3.new z hz
          refine ⟨by omega, B, ?_⟩
          have h3 := Frame.lt_next f2.wf hx2
          have h4 := Frame.lt_next f2.wf hy
          rw [hbl z (by omega) (by omega), h2]
        · by_cases h1 : z = y
          · subst h1
            rw [Mem.set_blk_same, h z ((f12.new z (by simp)).1)]
          · rw [Mem.set_blk_ne _ _ h1]
            by_cases h2 : z = x
            · subst h2
              rw [Mem.set_blk_same, h z ((f12.new z (by simp)).1)]
            · rw [Mem.set_blk_ne _ _ h2, f3.old z hz, f12.old z (by simp [h1, h2])]
        · rw [hbl a (Ne.symm (na hx2).1) (Ne.symm (na hy).1), ha]
        · rw [hbl b (Ne.symm (na hx2).2) (Ne.symm (na hy).2), hb]
      · exact .inr ⟨hE, by simp only [run_bind, e1, e2, andThen_ok, e]; rfl⟩
    · exact .inr ⟨hE, by simp only [run_bind, e1, andThen_ok, e]; rfl⟩
  · exact .inr ⟨hE, by simp only [run_bind, e]; rfl⟩

theorem result_lawful :
    Lawful resultCls (fun _ => True) (fun k o => o.dims = .null ∧ o.data = .null ∧ 8 * (k.1.length : Int) ≤ I64_MAX) false where
  make {a E m} _ h := by
    refine Mk.made (C := resultCls) ((newCount_mk h).bind ?_)
    rintro _ m1 _ f ⟨c, rfl, rfl, hc⟩
    exact .pure f.wf ⟨c, rfl, .refl _, hc, by simp [resultCls]⟩
  attach {k o E m} hf h := by
    obtain ⟨h1, h2, hr⟩ := hf
    refine (result_attach (E := E) h k o hr).imp_left fun ⟨o', m', L, e, f, a, b, hL, ho, _, _⟩ => ⟨o', m', L, e, ?_, f, ?_, ?_⟩
    · rw [ho]; rfl
    · rw [ho, hL]
      simp only [resultCls, h1, h2]
      exact .swap _ _ _
    · rw [ho]; simp +contextual [resultCls]
  copy o := ⟨_, rfl, rfl, rfl⟩
  move o := ⟨_, _, rfl, rfl, rfl, by simp [resultCls, ResultObj.toNull], rfl⟩
  assign h := by cases h
  dtor o := by
    show ResultObj.dtor o = _
    unfold ResultObj.dtor
    simp only [resultCls, rawFrees2]
    funext E m
    split
    · simp only [run_bind]
      cases decCount o.count E m with
      | ok n m1 =>
        simp only [andThen_ok]
        split
        · simp only [run_bind]
          cases rawFree o.dims E m1 with
          | ok u m2 =>
            simp only [andThen_ok]
            cases rawFree o.data E m2 <;> rfl
          | _ => rfl
        · rfl
      | _ => rfl
    · rfl

end Aitisa
